import Verif.Proof.U.AesSbox
/-!
# Bit-sliced AES: the linear steps
-/
namespace Saber.U.Aes
open Saber.Spec.Aes

theorem byte_xor (p q : Q Bool) :
    Q.byte ⟨p.q0 ^^ q.q0, p.q1 ^^ q.q1, p.q2 ^^ q.q2, p.q3 ^^ q.q3, p.q4 ^^ q.q4, p.q5 ^^ q.q5, p.q6 ^^ q.q6, p.q7 ^^ q.q7⟩
      = p.byte ^^^ q.byte := by
  obtain ⟨a0, a1, a2, a3, a4, a5, a6, a7⟩ := p
  obtain ⟨b0, b1, b2, b3, b4, b5, b6, b7⟩ := q
  apply BitVec.eq_of_getLsbD_eq
  intro i hi
  rw [BitVec.getLsbD_xor]
  simp only [Q.byte, BitVec.getLsbD_ofBoolListLE]
  rcases i with _ | _ | _ | _ | _ | _ | _ | _ | i <;> first | rfl | omega

theorem byte_xtime : ∀ a b c d e f g h : Bool,
    Q.byte ⟨h, a ^^ h, b, c ^^ h, d ^^ h, e, f, g⟩ = xtime (Q.byte ⟨a, b, c, d, e, f, g, h⟩) := by decide +kernel

/-- Bit `i` of byte number `p`. -/
theorem getLsbD_col (q : Q (BitVec 64)) (p i : Nat) (hi : i < 8) : (col q p).getLsbD i = (q.get i).getLsbD p := by
  unfold col Q.byte
  rw [BitVec.getLsbD_ofBoolListLE]
  rcases i with _ | _ | _ | _ | _ | _ | _ | _ | i <;> first | rfl | omega

/-- Byte `a` of a word. -/
def bt {w : Nat} (x : BitVec w) (a : Nat) : Byte := (x >>> (8 * a)).setWidth 8

theorem getLsbD_bt {w : Nat} (x : BitVec w) (a i : Nat) (hi : i < 8) : (bt x a).getLsbD i = x.getLsbD (8 * a + i) := by
  simp [bt, hi]

/-! ### `shift_rows` -/

/-- The position that is moved to position `p` by `shift_rows`. -/
def srPos (p : Nat) : Nat := 16 * (p / 16) + 4 * ((p / 4 + p / 16) % 4) + p % 4

theorem shiftRows1_bit (x : BitVec 64) : ∀ p, p < 64 → (shiftRows1 x).getLsbD p = x.getLsbD (srPos p) := by
  intro p hp
  unfold shiftRows1 srPos
  interval_cases p <;>
    simp only [BitVec.getLsbD_or, BitVec.getLsbD_and, BitVec.getLsbD_shiftLeft, BitVec.getLsbD_ushiftRight, BitVec.reduceGetLsb,
      Nat.reduceDiv, Nat.reduceMul, Nat.reduceAdd, Nat.reduceMod, Nat.reduceLT, Nat.reduceSub, Nat.reduceLeDiff, decide_true, decide_false,
      Bool.not_true, Bool.not_false, Bool.and_true, Bool.and_false, Bool.true_and, Bool.false_and, Bool.or_false, Bool.false_or]

theorem col_shift_rows (q : Q (BitVec 64)) (p : Nat) (hp : p < 64) : col (shift_rows q) p = col q (srPos p) := by
  simp only [col, shift_rows, Q.map, shiftRows1_bit _ p hp]

/-! ### `mix_columns` -/

theorem rot16_bit (x : BitVec 64) (p : Nat) (hp : p < 64) : ((x >>> 16) ||| (x <<< 48)).getLsbD p = x.getLsbD ((p + 16) % 64) := by
  rw [BitVec.getLsbD_or, BitVec.getLsbD_ushiftRight, BitVec.getLsbD_shiftLeft]
  by_cases h : p < 48
  · simp [h, show (p + 16) % 64 = 16 + p by omega]
  · rw [BitVec.getLsbD_of_ge _ _ (by omega : 64 ≤ 16 + p)]
    simp [h, hp, show (p + 16) % 64 = p - 48 by omega]

theorem rotr32_bit (x : BitVec 64) (p : Nat) (hp : p < 64) : (rotr32 x).getLsbD p = x.getLsbD ((p + 32) % 64) := by
  unfold rotr32
  rw [BitVec.getLsbD_or, BitVec.getLsbD_ushiftRight, BitVec.getLsbD_shiftLeft]
  by_cases h : p < 32
  · simp [h, show (p + 32) % 64 = 32 + p by omega]
  · rw [BitVec.getLsbD_of_ge _ _ (by omega : 64 ≤ 32 + p)]
    simp [h, hp, show (p + 32) % 64 = p - 32 by omega]

theorem col_mix_columns (q : Q (BitVec 64)) (p : Nat) (hp : p < 64) : col (mix_columns q) p =
    gmul 2 (col q p) ^^^ gmul 3 (col q ((p + 16) % 64)) ^^^ col q ((p + 32) % 64) ^^^ col q ((p + 48) % 64) := by
  rw [gmul_two, gmul_three]
  obtain ⟨q0, q1, q2, q3, q4, q5, q6, q7⟩ := q
  have h48 : ((p + 32) % 64 + 16) % 64 = (p + 48) % 64 := by omega
  have h32 : (p + 32) % 64 < 64 := by omega
  simp only [col, Q.map, mix_columns, BitVec.getLsbD_xor, rotr32_bit _ p hp, rot16_bit _ p hp, rot16_bit _ _ h32, h48]
  rw [← byte_xtime, ← byte_xtime, ← byte_xor, ← byte_xor, ← byte_xor, ← byte_xor]
  refine congrArg _ ?_
  simp only [Q.mk.injEq]
  refine ⟨?_, ?_, ?_, ?_, ?_, ?_, ?_, ?_⟩ <;> simp only [Bool.xor_assoc, Bool.xor_comm, Bool.xor_left_comm]

end Saber.U.Aes
