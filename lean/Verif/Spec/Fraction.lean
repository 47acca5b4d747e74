import Verif.CSem
import Mathlib.Data.Fintype.Card
import Mathlib.Data.Rat.Defs
/-!
# Specification: fractions of a finite set

The probability of an event under the uniform distribution on a finite set is the number of elements with the property divided by
the number of all elements.
-/
namespace Saber.Spec

/-- Bytes are a finite type. -/
instance : Fintype Byte := Fintype.ofEquiv (Fin (2 ^ 8)) ⟨BitVec.ofFin, BitVec.toFin, fun _ => rfl, fun _ => rfl⟩

/-- Byte strings of length `n`. -/
abbrev Bytes (n : Nat) := Fin n → Byte

open Classical in
/-- Number of elements with a property. -/
noncomputable def count {Ω : Type} [Fintype Ω] (p : Ω → Prop) : Nat := (Finset.univ.filter p).card

/-- Fraction of the elements with a property: its probability under the uniform distribution. -/
noncomputable def fraction {Ω : Type} [Fintype Ω] (p : Ω → Prop) : Rat := (count p : Rat) / (Fintype.card Ω : Rat)

end Saber.Spec
