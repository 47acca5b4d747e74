import Verif.Spec.Drbg
/-!
# Specification: hexadecimal text

Characters are bytes (ASCII).
-/
namespace Saber.Spec.Hex

/-- The text after the first occurrence of `marker`. -/
def after (marker : List Byte) : List Byte → Option (List Byte)
  | [] => if marker = [] then some [] else none
  | c :: s => if marker <+: c :: s then some ((c :: s).drop marker.length) else after marker s

/-- Value of a hexadecimal digit, upper or lower case. -/
def digit? (c : Byte) : Option Nat :=
  if 48 ≤ c.toNat ∧ c.toNat ≤ 57 then some (c.toNat - 48)
  else if 65 ≤ c.toNat ∧ c.toNat ≤ 70 then some (c.toNat - 55)
  else if 97 ≤ c.toNat ∧ c.toNat ≤ 102 then some (c.toNat - 87)
  else none

/-- The character is a hexadecimal digit. -/
def isHex (c : Byte) : Bool := (digit? c).isSome

/-- Number denoted by a string of hexadecimal digits. -/
def value (s : List Byte) : Nat := s.foldl (fun acc c => 16 * acc + (digit? c).getD 0) 0

/-- The digit `0`, ..., `9`, `A`, ..., `F`. -/
def upper (n : Nat) : Byte := if n < 10 then BitVec.ofNat 8 (48 + n) else BitVec.ofNat 8 (55 + n)

/-- Two upper-case digits per byte. -/
def text (bs : List Byte) : List Byte := bs.flatMap fun b => [upper (b.toNat / 16), upper (b.toNat % 16)]

end Saber.Spec.Hex
