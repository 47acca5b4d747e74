import Mathlib.Algebra.BigOperators.Group.Finset.Defs
import Mathlib.Data.Fintype.BigOperators
/-!
# The product of two polynomials, before reduction
-/
namespace Saber.Spec

/-- Coefficient `n` of the product of two polynomials with 256 integer coefficients. -/
def wideMul (a b : Fin 256 → Int) (n : Nat) : Int := ∑ i : Fin 256, ∑ j : Fin 256, if i.val + j.val = n then a i * b j else 0

end Saber.Spec
