import Verif.Model.Arm.KeccakBytes
import Mathlib.Tactic.IntervalCases
import Mathlib.Data.Finset.Defs
/-!
# Bit interleaving: what the two macros of `asm_KeccakF-1600.S` compute
-/
namespace Saber.Thumb

/-- The results of `squeezeR` and `squeezeL`. -/
def sqR (m : W) (k : Nat) (x : W) : W := (x &&& m) ||| ((x &&& m) >>> k)
@[inherit_doc sqR] def sqL (m : W) (k : Nat) (x : W) : W := (x &&& m) ||| ((x &&& m) <<< k)

/-- The even bits in the lower half, the odd bits in the upper half. -/
def lowHalf (x : W) : W := sqR 0x00FF00FF 8 (sqR 0x0F0F0F0F 4 (sqR 0x33333333 2 (sqR 0x55555555 1 x)))
@[inherit_doc lowHalf] def highHalf (x : W) : W := sqL 0xFF00FF00 8 (sqL 0xF0F0F0F0 4 (sqL 0xCCCCCCCC 2 (sqL 0xAAAAAAAA 1 x)))

theorem getLsbD_sqR (m x : W) (k i : Nat) :
    (sqR m k x).getLsbD i = (x.getLsbD i && m.getLsbD i || x.getLsbD (k + i) && m.getLsbD (k + i)) := by
  simp [sqR]

theorem getLsbD_sqL (m x : W) (k i : Nat) : (sqL m k x).getLsbD i = (x.getLsbD i && m.getLsbD i ||
    (decide (i < 32) && !decide (i < k)) && (x.getLsbD (i - k) && m.getLsbD (i - k))) := by
  simp only [sqL, BitVec.getLsbD_or, BitVec.getLsbD_and, BitVec.getLsbD_shiftLeft]

theorem low_bits (x : W) (j : Nat) (hj : j < 16) : (lowHalf x).getLsbD j = x.getLsbD (2 * j) := by
  unfold lowHalf
  interval_cases j <;> simp only [getLsbD_sqR, Nat.reduceAdd, BitVec.reduceGetLsb, Bool.and_false, Bool.and_true, Bool.or_false, Bool.false_or, Nat.reduceMul]

theorem high_bits (x : W) (j : Nat) (hj : j < 16) : (highHalf x).getLsbD (16 + j) = x.getLsbD (2 * j + 1) := by
  unfold highHalf
  interval_cases j <;> simp only [getLsbD_sqL, Nat.reduceAdd, Nat.reduceSub, Nat.reduceLT, decide_true, decide_false, Bool.not_false, Bool.not_true,
    BitVec.reduceGetLsb, Bool.and_false, Bool.and_true, Bool.true_and, Bool.false_and, Bool.or_false, Bool.false_or, Nat.reduceMul]

/-- The even and the odd bits of a pair of words. -/
def evens (x0 x1 : W) : W := ((lowHalf x0 <<< 16) >>> 16) ||| (lowHalf x1 <<< 16)
@[inherit_doc evens] def odds (x0 x1 : W) : W := (highHalf x0 >>> 16) ||| ((highHalf x1 >>> 16) <<< 16)

theorem evens_bits (x0 x1 : W) (j : Nat) (hj : j < 32) : (evens x0 x1).getLsbD j = if j < 16 then x0.getLsbD (2 * j) else x1.getLsbD (2 * (j - 16)) := by
  unfold evens
  simp only [BitVec.getLsbD_or, BitVec.getLsbD_ushiftRight, BitVec.getLsbD_shiftLeft]
  split
  · next h => rw [← low_bits _ _ h]; simp [hj, h]; omega
  · next h =>
    rw [← low_bits _ _ (by omega), decide_eq_false (by omega : ¬ 16 + j < 32)]
    simp [hj, h]

theorem odds_bits (x0 x1 : W) (j : Nat) (hj : j < 32) :
    (odds x0 x1).getLsbD j = if j < 16 then x0.getLsbD (2 * j + 1) else x1.getLsbD (2 * (j - 16) + 1) := by
  unfold odds
  simp only [BitVec.getLsbD_or, BitVec.getLsbD_ushiftRight, BitVec.getLsbD_shiftLeft]
  split
  · next h => rw [← high_bits _ _ h]; simp [h]
  · next h =>
    rw [← high_bits _ _ (by omega), show 16 + (j - 16) = j by omega, BitVec.getLsbD_of_ge _ _ (by omega)]
    simp [hj, h]

/-- The result of `fromBitInterleavingStep`. -/
def unStep (m : W) (k : Nat) (x : W) : W :=
  let t := ((x >>> k) ^^^ x) &&& m
  (x ^^^ t) ^^^ (t <<< k)

theorem getLsbD_unStep (m x : W) (k i : Nat) : (unStep m k x).getLsbD i =
    ((x.getLsbD i ^^ ((x.getLsbD (k + i) ^^ x.getLsbD i) && m.getLsbD i)) ^^
      (decide (i < 32) && !decide (i < k) && ((x.getLsbD (k + (i - k)) ^^ x.getLsbD (i - k)) && m.getLsbD (i - k)))) := by
  simp only [unStep, BitVec.getLsbD_xor, BitVec.getLsbD_and, BitVec.getLsbD_ushiftRight, BitVec.getLsbD_shiftLeft]

/-- The result of the four steps for one word. -/
def unHalf (x : W) : W := unStep 0x22222222 1 (unStep 0x0C0C0C0C 2 (unStep 0x00F000F0 4 (unStep 0x0000FF00 8 x)))

/-- If `m` selects at each pair of positions at most one, the step swaps bits. -/
theorem unHalf_bits (x : W) (i : Nat) (hi : i < 32) : (unHalf x).getLsbD i = x.getLsbD (i / 2 + 16 * (i % 2)) := by
  have key : ∀ a b : Bool, (a ^^ (b ^^ a)) = b := by decide
  have key2 : ∀ a b : Bool, (a ^^ (a ^^ b)) = b := by decide
  unfold unHalf
  interval_cases i <;> simp only [getLsbD_unStep, Nat.reduceAdd, Nat.reduceSub, Nat.reduceLT, decide_true, decide_false, Bool.not_false, Bool.not_true,
    BitVec.reduceGetLsb, Bool.and_false, Bool.and_true, Bool.true_and, Bool.false_and, Bool.xor_false, Bool.false_xor, Nat.reduceMul, Nat.reduceDiv,
    Nat.reduceMod, key, key2]

/-- The two words from an even and an odd word. -/
def unLow (e o : W) : W := unHalf (((e <<< 16) >>> 16) ||| (o <<< 16))
@[inherit_doc unLow] def unHigh (e o : W) : W := unHalf (((o >>> 16) <<< 16) ||| (e >>> 16))

theorem unLow_bits (e o : W) (i : Nat) (hi : i < 32) : (unLow e o).getLsbD i = if i % 2 = 0 then e.getLsbD (i / 2) else o.getLsbD (i / 2) := by
  unfold unLow
  rw [unHalf_bits _ _ hi]
  simp only [BitVec.getLsbD_or, BitVec.getLsbD_ushiftRight, BitVec.getLsbD_shiftLeft]
  have : i / 2 < 16 := by omega
  split
  · next h => rw [h]; simp [this]; omega
  · next h =>
    rw [show i % 2 = 1 by omega, decide_eq_false (by omega : ¬ 16 + (i / 2 + 16 * 1) < 32), decide_eq_true (by omega : i / 2 + 16 * 1 < 32),
      decide_eq_false (by omega : ¬ i / 2 + 16 * 1 < 16), Nat.mul_one, Nat.add_sub_cancel]
    simp

theorem unHigh_bits (e o : W) (i : Nat) (hi : i < 32) :
    (unHigh e o).getLsbD i = if i % 2 = 0 then e.getLsbD (16 + i / 2) else o.getLsbD (16 + i / 2) := by
  unfold unHigh
  rw [unHalf_bits _ _ hi]
  simp only [BitVec.getLsbD_or, BitVec.getLsbD_ushiftRight, BitVec.getLsbD_shiftLeft]
  have : i / 2 < 16 := by omega
  split
  · next h => rw [h]; simp [this]
  · next h =>
    rw [show i % 2 = 1 by omega, decide_eq_true (by omega : i / 2 + 16 * 1 < 32), decide_eq_false (by omega : ¬ i / 2 + 16 * 1 < 16), Nat.mul_one,
      Nat.add_sub_cancel, BitVec.getLsbD_of_ge e _ (by omega)]
    simp

end Saber.Thumb
