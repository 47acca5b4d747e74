import Verif.Spec.Bits
import Mathlib.Algebra.BigOperators.Fin
/-!
# The ring `Z[X]/(X^256 + 1)`

Multiplication is written out: coefficient `k` of `a * b` is the sum of all `a i * b j` with `i + j = k`, minus the sum of
those with `i + j = k + 256`.
-/
namespace Saber.Spec

/-- Coefficient `k` of `a * b` in `Z[X]/(X^256 + 1)`; the index `k - i` is taken modulo 256. -/
def negMul (a b : Poly) : Poly := fun k => ∑ i : Fin 256, (if i ≤ k then 1 else -1) * (a i * b (k - i))

/-- Coefficientwise equality modulo `m`. -/
def EqMod (m : Int) (a b : Poly) : Prop := ∀ k, a k % m = b k % m

end Saber.Spec
