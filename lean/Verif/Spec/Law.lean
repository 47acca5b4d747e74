import Verif.Spec.Fraction
import Mathlib.Algebra.BigOperators.Group.Finset.Basic
import Mathlib.Algebra.BigOperators.Fin
/-!
# Specification: laws of random variables

An integer-valued random variable is a function on a finite set with the uniform distribution.  A function `f` is its law if it gives every
integer the fraction of the elements with this value.
-/
namespace Saber.Spec

/-- `f` is the law of `X`. -/
def LawOf {Ω : Type} [Fintype Ω] (f : Int → Rat) (X : Ω → Int) : Prop :=
  ∀ x, f x = fraction fun ω => X ω = x

/-- The sum of `n` independent copies of `X`. -/
def copies {Ω : Type} (X : Ω → Int) (n : Nat) (ω : Fin n → Ω) : Int :=
  ∑ j, X (ω j)

/-- Probability that two independent copies of `X` differ by `c` (first minus second), if the second is drawn from the copies that
are congruent to the first modulo `m`. -/
noncomputable def congruentDifference {Ω : Type} [Fintype Ω] (X : Ω → Int) (m c : Int) : Rat :=
  (∑ ω, if c % m = 0 then fraction (fun ω' => X ω' = X ω - c) / fraction (fun ω' => X ω' % m = X ω % m) else 0) / Fintype.card Ω

end Saber.Spec

namespace Saber.Spec

/-- Error of rounding `x` to the nearest multiple of `2 * h`, ties to the multiples of `4 * h`: `x` minus the multiple. -/
def nearestError (h : Nat) (x : Nat) : Int :=
  if x % (2 * h) < h then (x % (2 * h) : Nat)
  else if h < x % (2 * h) then (x % (2 * h) : Nat) - (2 * h : Nat)
  else if x / (2 * h) % 2 = 0 then (h : Int) else -(h : Int)

end Saber.Spec
