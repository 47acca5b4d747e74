import Verif.Proof.U.AesBits
/-!
# Bit-sliced AES: conversion to and from the bit-sliced form
-/
namespace Saber.U.Aes
open Saber.Spec.Aes

/-! ### `ortho` -/

theorem SWAP2_bit (x y : BitVec 64) (p : Nat) (hp : p < 64) :
    (SWAP2 x y).1.getLsbD p = (if p / 1 % 2 = 0 then x.getLsbD p else y.getLsbD (p - 1)) ∧
    (SWAP2 x y).2.getLsbD p = (if p / 1 % 2 = 0 then x.getLsbD (p + 1) else y.getLsbD p) := by
  unfold SWAP2 SWAPN
  interval_cases p <;>
    simp only [BitVec.getLsbD_or, BitVec.getLsbD_and, BitVec.getLsbD_shiftLeft, BitVec.getLsbD_ushiftRight, BitVec.reduceGetLsb,
      Nat.reduceDiv, Nat.reduceMul, Nat.reduceAdd, Nat.reduceMod, Nat.reduceLT, Nat.reduceSub, Nat.reduceLeDiff, decide_true, decide_false,
      Bool.not_true, Bool.not_false, Bool.and_true, Bool.and_false, Bool.true_and, Bool.false_and, Bool.or_false, Bool.false_or,
      Nat.reduceEqDiff, if_true, if_false, and_self, BitVec.getLsbD_setWidth]

theorem SWAP4_bit (x y : BitVec 64) (p : Nat) (hp : p < 64) :
    (SWAP4 x y).1.getLsbD p = (if p / 2 % 2 = 0 then x.getLsbD p else y.getLsbD (p - 2)) ∧
    (SWAP4 x y).2.getLsbD p = (if p / 2 % 2 = 0 then x.getLsbD (p + 2) else y.getLsbD p) := by
  unfold SWAP4 SWAPN
  interval_cases p <;>
    simp only [BitVec.getLsbD_or, BitVec.getLsbD_and, BitVec.getLsbD_shiftLeft, BitVec.getLsbD_ushiftRight, BitVec.reduceGetLsb,
      Nat.reduceDiv, Nat.reduceMul, Nat.reduceAdd, Nat.reduceMod, Nat.reduceLT, Nat.reduceSub, Nat.reduceLeDiff, decide_true, decide_false,
      Bool.not_true, Bool.not_false, Bool.and_true, Bool.and_false, Bool.true_and, Bool.false_and, Bool.or_false, Bool.false_or,
      Nat.reduceEqDiff, if_true, if_false, and_self, BitVec.getLsbD_setWidth]

theorem SWAP8_bit (x y : BitVec 64) (p : Nat) (hp : p < 64) :
    (SWAP8 x y).1.getLsbD p = (if p / 4 % 2 = 0 then x.getLsbD p else y.getLsbD (p - 4)) ∧
    (SWAP8 x y).2.getLsbD p = (if p / 4 % 2 = 0 then x.getLsbD (p + 4) else y.getLsbD p) := by
  unfold SWAP8 SWAPN
  interval_cases p <;>
    simp only [BitVec.getLsbD_or, BitVec.getLsbD_and, BitVec.getLsbD_shiftLeft, BitVec.getLsbD_ushiftRight, BitVec.reduceGetLsb,
      Nat.reduceDiv, Nat.reduceMul, Nat.reduceAdd, Nat.reduceMod, Nat.reduceLT, Nat.reduceSub, Nat.reduceLeDiff, decide_true, decide_false,
      Bool.not_true, Bool.not_false, Bool.and_true, Bool.and_false, Bool.true_and, Bool.false_and, Bool.or_false, Bool.false_or,
      Nat.reduceEqDiff, if_true, if_false, and_self, BitVec.getLsbD_setWidth]

theorem SWAP2_at (x y : BitVec 64) (a c : Nat) (ha : a < 8) (hc : c < 8) :
    (SWAP2 x y).1.getLsbD (8 * a + c) = (if c / 1 % 2 = 0 then x.getLsbD (8 * a + c) else y.getLsbD (8 * a + (c - 1))) ∧
    (SWAP2 x y).2.getLsbD (8 * a + c) = (if c / 1 % 2 = 0 then x.getLsbD (8 * a + (c + 1)) else y.getLsbD (8 * a + c)) := by
  obtain ⟨h1, h2⟩ := SWAP2_bit x y (8 * a + c) (by omega)
  rw [h1, h2, show (8 * a + c) / 1 % 2 = c / 1 % 2 by omega]
  by_cases h : c / 1 % 2 = 0
  · simp only [h, if_true, Nat.add_assoc, and_self]
  · rw [if_neg h, if_neg h, if_neg h, if_neg h, show 8 * a + c - 1 = 8 * a + (c - 1) by omega]
    exact ⟨rfl, rfl⟩

theorem SWAP4_at (x y : BitVec 64) (a c : Nat) (ha : a < 8) (hc : c < 8) :
    (SWAP4 x y).1.getLsbD (8 * a + c) = (if c / 2 % 2 = 0 then x.getLsbD (8 * a + c) else y.getLsbD (8 * a + (c - 2))) ∧
    (SWAP4 x y).2.getLsbD (8 * a + c) = (if c / 2 % 2 = 0 then x.getLsbD (8 * a + (c + 2)) else y.getLsbD (8 * a + c)) := by
  obtain ⟨h1, h2⟩ := SWAP4_bit x y (8 * a + c) (by omega)
  rw [h1, h2, show (8 * a + c) / 2 % 2 = c / 2 % 2 by omega]
  by_cases h : c / 2 % 2 = 0
  · simp only [h, if_true, Nat.add_assoc, and_self]
  · rw [if_neg h, if_neg h, if_neg h, if_neg h, show 8 * a + c - 2 = 8 * a + (c - 2) by omega]
    exact ⟨rfl, rfl⟩

theorem SWAP8_at (x y : BitVec 64) (a c : Nat) (ha : a < 8) (hc : c < 8) :
    (SWAP8 x y).1.getLsbD (8 * a + c) = (if c / 4 % 2 = 0 then x.getLsbD (8 * a + c) else y.getLsbD (8 * a + (c - 4))) ∧
    (SWAP8 x y).2.getLsbD (8 * a + c) = (if c / 4 % 2 = 0 then x.getLsbD (8 * a + (c + 4)) else y.getLsbD (8 * a + c)) := by
  obtain ⟨h1, h2⟩ := SWAP8_bit x y (8 * a + c) (by omega)
  rw [h1, h2, show (8 * a + c) / 4 % 2 = c / 4 % 2 by omega]
  by_cases h : c / 4 % 2 = 0
  · simp only [h, if_true, Nat.add_assoc, and_self]
  · rw [if_neg h, if_neg h, if_neg h, if_neg h, show 8 * a + c - 4 = 8 * a + (c - 4) by omega]
    exact ⟨rfl, rfl⟩

theorem ortho_bit (q : Q (BitVec 64)) (r p : Nat) (hr : r < 8) (hp : p < 64) :
    ((ortho q).get r).getLsbD p = (q.get (p % 8)).getLsbD (8 * (p / 8) + r) := by
  obtain ⟨q0, q1, q2, q3, q4, q5, q6, q7⟩ := q
  obtain ⟨a, c, hc, ha, rfl⟩ : ∃ a c, c < 8 ∧ a < 8 ∧ p = 8 * a + c := ⟨p / 8, p % 8, by omega, by omega, by omega⟩
  rw [show (8 * a + c) % 8 = c by omega, show (8 * a + c) / 8 = a by omega]
  interval_cases c <;> interval_cases r <;>
    simp only [ortho, Q.get, SWAP2_at, SWAP4_at, SWAP8_at, ha, Nat.reduceLT, Nat.reduceDiv, Nat.reduceMod, Nat.reduceEqDiff, if_true,
      if_false, Nat.reduceAdd, Nat.reduceSub]

theorem col_ortho (q : Q (BitVec 64)) (p : Nat) (hp : p < 64) : col (ortho q) p = bt (q.get (p % 8)) (p / 8) := by
  apply BitVec.eq_of_getLsbD_eq
  intro i hi
  rw [getLsbD_col _ _ _ hi, getLsbD_bt _ _ _ hi, ortho_bit _ _ _ hi hp]

theorem bt_ortho (q : Q (BitVec 64)) (r a : Nat) (hr : r < 8) (ha : a < 8) : bt ((ortho q).get r) a = col q (8 * a + r) := by
  apply BitVec.eq_of_getLsbD_eq
  intro i hi
  rw [getLsbD_col _ _ _ hi, getLsbD_bt _ _ _ hi, ortho_bit _ _ _ hr (by omega), show (8 * a + i) % 8 = i by omega,
    show (8 * a + i) / 8 = a by omega]

/-! ### Interleaving -/

theorem spread_bit (w : BitVec 32) (p : Nat) (hp : p < 64) :
    (spread (w.setWidth 64)).getLsbD p = (decide (p / 8 % 2 = 0) && w.getLsbD (8 * (p / 16) + p % 8)) := by
  unfold spread
  interval_cases p <;>
    simp [BitVec.getLsbD_or, BitVec.getLsbD_and, BitVec.getLsbD_shiftLeft, BitVec.getLsbD_setWidth]

theorem gather_bit (q : BitVec 64) (p : Nat) (hp : p < 32) :
    (gather (q &&& 0x00FF00FF00FF00FF#64)).getLsbD p = q.getLsbD (16 * (p / 8) + p % 8) := by
  unfold gather
  interval_cases p <;>
    simp only [BitVec.getLsbD_or, BitVec.getLsbD_and, BitVec.getLsbD_shiftLeft, BitVec.getLsbD_ushiftRight, BitVec.reduceGetLsb,
      Nat.reduceDiv, Nat.reduceMul, Nat.reduceAdd, Nat.reduceMod, Nat.reduceLT, Nat.reduceSub, Nat.reduceLeDiff, decide_true, decide_false,
      Bool.not_true, Bool.not_false, Bool.and_true, Bool.and_false, Bool.true_and, Bool.false_and, Bool.or_false, Bool.false_or,
      Nat.reduceEqDiff, if_true, if_false, and_self, BitVec.getLsbD_setWidth, Bool.or_self]

theorem bt_interleave (w0 w2 : BitVec 32) (a : Nat) (ha : a < 8) :
    bt (spread (w0.setWidth 64) ||| (spread (w2.setWidth 64) <<< 8)) a = if a % 2 = 0 then bt w0 (a / 2) else bt w2 (a / 2) := by
  apply BitVec.eq_of_getLsbD_eq
  intro i hi
  rw [getLsbD_bt _ _ _ hi, BitVec.getLsbD_or, BitVec.getLsbD_shiftLeft, spread_bit _ _ (by omega), decide_eq_true (by omega : 8 * a + i < 64),
    Bool.true_and]
  by_cases h : a % 2 = 0
  · rw [if_pos h, getLsbD_bt _ _ _ hi, decide_eq_true (by omega), Bool.true_and, show 8 * ((8 * a + i) / 16) + (8 * a + i) % 8 = 8 * (a / 2) + i by omega]
    by_cases h8 : 8 * a + i < 8
    · rw [decide_eq_true h8]; simp
    · rw [spread_bit _ _ (by omega), decide_eq_false (by omega : ¬ (8 * a + i - 8) / 8 % 2 = 0)]; simp
  · rw [if_neg h, getLsbD_bt _ _ _ hi, decide_eq_false (by omega), Bool.false_and, Bool.false_or, decide_eq_false (by omega),
      spread_bit _ _ (by omega), decide_eq_true (by omega), show 8 * ((8 * a + i - 8) / 16) + (8 * a + i - 8) % 8 = 8 * (a / 2) + i by omega]
    rfl

theorem bt_gather_even (q : BitVec 64) (r : Nat) (hr : r < 4) : bt (gather (q &&& 0x00FF00FF00FF00FF#64)) r = bt q (2 * r) := by
  apply BitVec.eq_of_getLsbD_eq
  intro i hi
  rw [getLsbD_bt _ _ _ hi, getLsbD_bt _ _ _ hi, gather_bit _ _ (by omega), show 16 * ((8 * r + i) / 8) + (8 * r + i) % 8 = 8 * (2 * r) + i by omega]

theorem bt_gather_odd (q : BitVec 64) (r : Nat) (hr : r < 4) : bt (gather ((q >>> 8) &&& 0x00FF00FF00FF00FF#64)) r = bt q (2 * r + 1) := by
  rw [bt_gather_even _ _ hr]
  apply BitVec.eq_of_getLsbD_eq
  intro i hi
  rw [getLsbD_bt _ _ _ hi, getLsbD_bt _ _ _ hi, BitVec.getLsbD_ushiftRight]
  congr 1; omega

/-! ### Words as bytes -/

/-- The four bytes of a word. -/
def wb (x : BitVec 32) : List Byte := [bt x 0, bt x 1, bt x 2, bt x 3]

theorem ext_bt {x y : BitVec 32} (h : ∀ a, a < 4 → bt x a = bt y a) : x = y := by
  apply BitVec.eq_of_getLsbD_eq
  intro i hi
  have := congrArg (fun b : Byte => b.getLsbD (i % 8)) (h (i / 8) (by omega))
  simp only [getLsbD_bt _ _ _ (show i % 8 < 8 by omega)] at this
  rwa [show 8 * (i / 8) + i % 8 = i by omega] at this

theorem bt_xor (x y : BitVec 32) (a : Nat) : bt (x ^^^ y) a = bt x a ^^^ bt y a := by
  apply BitVec.eq_of_getLsbD_eq
  intro i hi
  rw [getLsbD_bt _ _ _ hi, BitVec.getLsbD_xor, BitVec.getLsbD_xor, getLsbD_bt _ _ _ hi, getLsbD_bt _ _ _ hi]

theorem bt_setWidth (x : Byte) (a : Nat) : bt (x.setWidth 32) a = if a = 0 then x else 0 := by
  apply BitVec.eq_of_getLsbD_eq
  intro i hi
  rw [getLsbD_bt _ _ _ hi, BitVec.getLsbD_setWidth]
  by_cases h : a = 0
  · subst h; simp [show i < 32 by omega]
  · rw [if_neg h, BitVec.getLsbD_of_ge x _ (by omega)]; simp

theorem bt_rot (x : BitVec 32) (a : Nat) (ha : a < 4) : bt ((x <<< 24) ||| (x >>> 8)) a = bt x ((a + 1) % 4) := by
  apply BitVec.eq_of_getLsbD_eq
  intro i hi
  rw [getLsbD_bt _ _ _ hi, getLsbD_bt _ _ _ hi, BitVec.getLsbD_or, BitVec.getLsbD_shiftLeft, BitVec.getLsbD_ushiftRight]
  by_cases h : a = 3
  · subst h
    rw [BitVec.getLsbD_of_ge x (8 + (8 * 3 + i)) (by omega)]
    simp [show 24 + i < 32 by omega]
  · rw [show (a + 1) % 4 = a + 1 by omega, show 8 * (a + 1) + i = 8 + (8 * a + i) by omega]
    simp [show 8 * a + i < 24 by omega]

theorem swap_bit (x : BitVec 32) (p : Nat) (hp : p < 32) : (br_swap32 x).getLsbD p = x.getLsbD (8 * (3 - p / 8) + p % 8) := by
  unfold br_swap32
  interval_cases p <;>
    simp only [BitVec.getLsbD_or, BitVec.getLsbD_and, BitVec.getLsbD_shiftLeft, BitVec.getLsbD_ushiftRight, BitVec.reduceGetLsb,
      Nat.reduceDiv, Nat.reduceMul, Nat.reduceAdd, Nat.reduceMod, Nat.reduceLT, Nat.reduceSub, Nat.reduceLeDiff, decide_true, decide_false,
      Bool.not_true, Bool.not_false, Bool.and_true, Bool.and_false, Bool.true_and, Bool.false_and, Bool.or_false, Bool.false_or,
      Nat.reduceEqDiff, if_true, if_false, and_self, BitVec.getLsbD_setWidth, Bool.or_self]

theorem bt_swap (x : BitVec 32) (a : Nat) (ha : a < 4) : bt (br_swap32 x) a = bt x (3 - a) := by
  apply BitVec.eq_of_getLsbD_eq
  intro i hi
  rw [getLsbD_bt _ _ _ hi, getLsbD_bt _ _ _ hi, swap_bit _ _ (by omega), show (8 * a + i) / 8 = a by omega, show (8 * a + i) % 8 = i by omega]

theorem swap_swap (x : BitVec 32) : br_swap32 (br_swap32 x) = x :=
  ext_bt fun a ha => by rw [bt_swap _ _ ha, bt_swap _ _ (by omega), show 3 - (3 - a) = a by omega]

theorem bt_sub_word (x : BitVec 32) (a : Nat) (ha : a < 4) : bt (sub_word x) a = sbox (bt x a) := by
  unfold sub_word
  have h : ∀ y : BitVec 64, bt (y.setWidth 32) a = bt y a := by
    intro y
    apply BitVec.eq_of_getLsbD_eq
    intro i hi
    rw [getLsbD_bt _ _ _ hi, getLsbD_bt _ _ _ hi, BitVec.getLsbD_setWidth, decide_eq_true (by omega), Bool.true_and]
  rw [h]
  have h2 := bt_ortho (bitslice_Sbox (ortho ⟨x.setWidth 64, 0, 0, 0, 0, 0, 0, 0⟩)) 0 a (by decide) (by omega)
  rw [Nat.add_zero, col_Sbox _ _ (by omega), col_ortho _ _ (by omega), show 8 * a % 8 = 0 by omega, show 8 * a / 8 = a by omega] at h2
  refine h2.trans (congrArg _ ?_)
  apply BitVec.eq_of_getLsbD_eq
  intro i hi
  rw [getLsbD_bt _ _ _ hi, getLsbD_bt _ _ _ hi]
  show (x.setWidth 64).getLsbD _ = _
  rw [BitVec.getLsbD_setWidth, decide_eq_true (by omega), Bool.true_and]

/-! ### Expansion of the compressed round keys -/

theorem fifteen (x : BitVec 64) (hx : ∀ p, p % 4 ≠ 0 → x.getLsbD p = false) (p : Nat) (hp : p < 64) :
    ((x <<< 4) - x).getLsbD p = x.getLsbD (4 * (p / 4)) := by
  have e1 : x + (x <<< 1) = x ||| (x <<< 1) := by
    apply BitVec.add_eq_or_of_and_eq_zero
    apply BitVec.eq_of_getLsbD_eq
    intro i hi
    rw [BitVec.getLsbD_and, BitVec.getLsbD_shiftLeft, BitVec.getLsbD_zero]
    by_cases h : i % 4 = 0
    · by_cases h0 : i < 1
      · simp [h0]
      · rw [hx (i - 1) (by omega)]; simp
    · rw [hx i h, Bool.false_and]
  have by_ : ∀ i, i < 64 → (x ||| (x <<< 1)).getLsbD i = if i % 4 = 0 then x.getLsbD i else if i % 4 = 1 then x.getLsbD (i - 1) else false := by
    intro i hi
    rw [BitVec.getLsbD_or, BitVec.getLsbD_shiftLeft, decide_eq_true hi, Bool.true_and]
    by_cases h : i % 4 = 0
    · rw [if_pos h]
      by_cases h0 : i < 1
      · simp [h0]
      · rw [hx (i - 1) (by omega)]; simp
    · rw [if_neg h, hx i h, decide_eq_false (by omega)]
      by_cases h1 : i % 4 = 1
      · rw [if_pos h1]; simp
      · rw [if_neg h1, hx (i - 1) (by omega)]; rfl
  have e2 : (x ||| (x <<< 1)) + ((x ||| (x <<< 1)) <<< 2) = (x ||| (x <<< 1)) ||| ((x ||| (x <<< 1)) <<< 2) := by
    apply BitVec.add_eq_or_of_and_eq_zero
    apply BitVec.eq_of_getLsbD_eq
    intro i hi
    rw [BitVec.getLsbD_and, BitVec.getLsbD_shiftLeft, BitVec.getLsbD_zero, by_ i hi, by_ (i - 2) (by omega)]
    by_cases h0 : i < 2
    · simp [h0]
    · by_cases h : i % 4 = 0
      · rw [if_neg (by omega : ¬ (i - 2) % 4 = 0), if_neg (by omega : ¬ (i - 2) % 4 = 1)]; simp
      · rw [if_neg h]
        by_cases h1 : i % 4 = 1
        · rw [if_neg (by omega : ¬ (i - 2) % 4 = 0), if_neg (by omega : ¬ (i - 2) % 4 = 1)]; simp
        · rw [if_neg h1]; simp
  have e3 : (x <<< 4) - x = (x ||| (x <<< 1)) + ((x ||| (x <<< 1)) <<< 2) := by
    rw [← e1]
    apply BitVec.eq_of_toNat_eq
    have := x.isLt
    simp only [BitVec.toNat_sub, BitVec.toNat_add, BitVec.toNat_shiftLeft, Nat.shiftLeft_eq]
    omega
  rw [e3, e2, BitVec.getLsbD_or, BitVec.getLsbD_shiftLeft, by_ p hp, by_ (p - 2) (by omega), decide_eq_true hp, Bool.true_and]
  by_cases h0 : p < 2
  · rw [decide_eq_true h0, Bool.not_true, Bool.false_and, Bool.or_false]
    by_cases h1 : p = 0
    · subst h1; rfl
    · obtain rfl : p = 1 := by omega
      rfl
  · rw [decide_eq_false h0, Bool.not_false, Bool.true_and]
    obtain ⟨m, b, hb, rfl⟩ : ∃ m b, b < 4 ∧ p = 4 * m + b := ⟨p / 4, p % 4, by omega, by omega⟩
    rw [show (4 * m + b) / 4 = m by omega]
    interval_cases b
    · rw [if_pos (by omega), if_neg (by omega), if_neg (by omega), Bool.or_false]; rfl
    · rw [if_neg (by omega), if_pos (by omega), if_neg (by omega), if_neg (by omega), Bool.or_false]; rfl
    · rw [if_neg (by omega), if_neg (by omega), if_pos (by omega), Bool.false_or]; rfl
    · rw [if_neg (by omega), if_neg (by omega), if_neg (by omega), if_pos (by omega), Bool.false_or]; rfl

theorem mask_bit (m : BitVec 64) (b : Nat) (hm : ∀ p, p < 64 → m.getLsbD p = decide (p % 4 = b)) (x : BitVec 64) (p : Nat) (hp : p < 64) (hb : b < 4) :
    (((x &&& m) >>> b) <<< 4 - ((x &&& m) >>> b)).getLsbD p = x.getLsbD (4 * (p / 4) + b) := by
  rw [fifteen _ _ p hp, BitVec.getLsbD_ushiftRight, BitVec.getLsbD_and, hm _ (by omega), decide_eq_true (by omega), Bool.and_true, Nat.add_comm]
  intro i hi
  rw [BitVec.getLsbD_ushiftRight, BitVec.getLsbD_and]
  by_cases h : b + i < 64
  · rw [hm _ h, decide_eq_false (by omega), Bool.and_false]
  · rw [BitVec.getLsbD_of_ge _ _ (by omega), Bool.false_and]

theorem m0_bit : ∀ p, p < 64 → (0x1111111111111111#64).getLsbD p = decide (p % 4 = 0) := by decide +kernel
theorem m1_bit : ∀ p, p < 64 → (0x2222222222222222#64).getLsbD p = decide (p % 4 = 1) := by decide +kernel
theorem m2_bit : ∀ p, p < 64 → (0x4444444444444444#64).getLsbD p = decide (p % 4 = 2) := by decide +kernel
theorem m3_bit : ∀ p, p < 64 → (0x8888888888888888#64).getLsbD p = decide (p % 4 = 3) := by decide +kernel

/-- Merging of four words by position modulo 4. -/
theorem merge_bit (x0 x1 x2 x3 : BitVec 64) (p : Nat) (hp : p < 64) :
    ((x0 &&& 0x1111111111111111#64) ||| (x1 &&& 0x2222222222222222#64) ||| (x2 &&& 0x4444444444444444#64) |||
      (x3 &&& 0x8888888888888888#64)).getLsbD p
      = if p % 4 = 0 then x0.getLsbD p else if p % 4 = 1 then x1.getLsbD p else if p % 4 = 2 then x2.getLsbD p else x3.getLsbD p := by
  simp only [BitVec.getLsbD_or, BitVec.getLsbD_and, m0_bit p hp, m1_bit p hp, m2_bit p hp, m3_bit p hp]
  have : p % 4 < 4 := by omega
  generalize p % 4 = b at *
  interval_cases b <;> simp

end Saber.U.Aes
