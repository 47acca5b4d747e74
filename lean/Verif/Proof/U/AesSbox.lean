import Verif.Model.U.Aes
import Verif.Spec.Aes
import Verif.Proof.BitTac
/-!
# Bit-sliced AES: what each step does to the 64 bytes held in bit-sliced form

The byte number `p < 64` of a bit-sliced state has its bit `i` in bit `p` of the word `q[i]`.
-/
namespace Saber.U.Aes
open Saber.Spec.Aes

/-- Map a function over the eight words. -/
def Q.map {α β : Type} (f : α → β) (q : Q α) : Q β := ⟨f q.q0, f q.q1, f q.q2, f q.q3, f q.q4, f q.q5, f q.q6, f q.q7⟩

/-- The byte with the given bits. -/
def Q.byte (q : Q Bool) : Byte := BitVec.ofBoolListLE [q.q0, q.q1, q.q2, q.q3, q.q4, q.q5, q.q6, q.q7]

/-- Byte number `p` of a bit-sliced state. -/
def col (q : Q (BitVec 64)) (p : Nat) : Byte := (q.map fun x => x.getLsbD p).byte

/-- The word `q[i]`. -/
def Q.get (q : Q (BitVec 64)) : Nat → BitVec 64
  | 0 => q.q0 | 1 => q.q1 | 2 => q.q2 | 3 => q.q3 | 4 => q.q4 | 5 => q.q5 | 6 => q.q6 | _ => q.q7

theorem Sbox_map {α β : Type} [XorOp α] [AndOp α] [Complement α] [XorOp β] [AndOp β] [Complement β] (f : α → β)
    (hx : ∀ a b, f (a ^^^ b) = f a ^^^ f b) (ha : ∀ a b, f (a &&& b) = f a &&& f b) (hn : ∀ a, f (~~~a) = ~~~(f a)) (q : Q α) :
    (bitslice_Sbox q).map f = bitslice_Sbox (q.map f) := by
  simp only [bitslice_Sbox, Q.map, hx, ha, hn]

local instance : XorOp Bool := ⟨Bool.xor⟩
local instance : AndOp Bool := ⟨and⟩
local instance : Complement Bool := ⟨not⟩

theorem Sbox_bool : ∀ a b c d e f g h : Bool, (bitslice_Sbox (⟨a, b, c, d, e, f, g, h⟩ : Q Bool)).byte = sbox (Q.byte ⟨a, b, c, d, e, f, g, h⟩) := by
  decide +kernel

theorem inv_correct : ∀ b : Byte, b ≠ 0 → gmul b (inv b) = 1 := by decide +kernel

theorem gmul_two : ∀ b : Byte, gmul 2 b = xtime b := by decide +kernel
theorem gmul_three : ∀ b : Byte, gmul 3 b = xtime b ^^^ b := by decide +kernel

theorem col_Sbox (q : Q (BitVec 64)) (p : Nat) (hp : p < 64) : col (bitslice_Sbox q) p = sbox (col q p) := by
  unfold col
  rw [Sbox_map (fun x : BitVec 64 => x.getLsbD p) (fun _ _ => BitVec.getLsbD_xor) (fun _ _ => BitVec.getLsbD_and)
    (fun x => (BitVec.getLsbD_not (x := x)).trans (by rw [decide_eq_true hp, Bool.true_and]; rfl))]
  exact Sbox_bool _ _ _ _ _ _ _ _

end Saber.U.Aes
