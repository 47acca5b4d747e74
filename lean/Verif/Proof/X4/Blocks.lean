import Verif.Proof.X4.Vec
import Verif.Proof.Pack
/-!
# The shift statements of SaberX4's packing functions: each lane is the block of the reference implementation
-/
namespace Saber.X4

/-- The element `x` holds the number `e`, which has at most `w` bits. -/
structure LV (w : Nat) (x : BitVec 32) (e : Nat) : Prop where
  val : x.toNat = e
  lt : e < 2 ^ w

theorem toNat_w {v : Nat} (a : BitVec v) (hv : v ≤ 32) : (a.setWidth 32).toNat = a.toNat := by
  rw [BitVec.toNat_setWidth]
  exact Nat.mod_eq_of_lt (Nat.lt_of_lt_of_le a.isLt (Nat.pow_le_pow_right (by decide) hv))

theorem LV.or {w : Nat} {x y : BitVec 32} {e f : Nat} (h : LV w x e) (h' : LV w y f) : LV w (x ||| y) (e ||| f) :=
  ⟨by rw [BitVec.toNat_or, h.val, h'.val], Nat.or_lt_two_pow h.lt h'.lt⟩

theorem LV.and {w v : Nat} (a : BitVec v) (hv : v ≤ 32) {m : BitVec 32} {k : Nat} (hm : m.toNat = k) (hk : k < 2 ^ w) :
    LV w (a.setWidth 32 &&& m) (a.toNat &&& k) :=
  ⟨by rw [BitVec.toNat_and, hm, toNat_w a hv], Nat.and_lt_two_pow _ hk⟩

theorem LV.shr_and {w v : Nat} (a : BitVec v) (hv : v ≤ 32) {n : Nat} {m : BitVec 32} {k : Nat} (hm : m.toNat = k) (hk : k < 2 ^ w) :
    LV w ((a.setWidth 32 >>> n) &&& m) ((a.toNat >>> n) &&& k) :=
  ⟨by rw [BitVec.toNat_and, hm, BitVec.toNat_ushiftRight, toNat_w a hv], Nat.and_lt_two_pow _ hk⟩

theorem LV.and_shl {w v : Nat} (a : BitVec v) (hv : v ≤ 32) {n : Nat} {m : BitVec 32} {k : Nat} (hm : m.toNat = k) (hk : k * 2 ^ n < 2 ^ w)
    (hw : w ≤ 32) : LV w ((a.setWidth 32 &&& m) <<< n) ((a.toNat &&& k) <<< n) := by
  have h1 : (a.toNat &&& k) <<< n < 2 ^ w := by
    rw [Nat.shiftLeft_eq]
    exact Nat.lt_of_le_of_lt (Nat.mul_le_mul_right _ Nat.and_le_right) hk
  refine ⟨?_, h1⟩
  rw [BitVec.toNat_shiftLeft, BitVec.toNat_and, hm, toNat_w a hv]
  exact Nat.mod_eq_of_lt (Nat.lt_of_lt_of_le h1 (Nat.pow_le_pow_right (by decide) hw))

theorem and_255 (b : BitVec 8) : b.toNat &&& 255 = b.toNat := by
  rw [show (255 : Nat) = 2 ^ 8 - 1 from rfl, Nat.and_two_pow_sub_one_eq_mod]
  exact Nat.mod_eq_of_lt b.isLt

theorem LV.shl_byte {w : Nat} (a : BitVec 8) {n : Nat} (hk : 255 * 2 ^ n < 2 ^ w) (hw : w ≤ 32) :
    LV w (a.setWidth 32 <<< n) ((a.toNat &&& 255) <<< n) := by
  have h := LV.and_shl (w := w) (n := n) a (by decide) (m := 255) (k := 255) rfl hk hw
  rwa [show a.setWidth 32 &&& (255 : BitVec 32) = a.setWidth 32 from by
    apply BitVec.eq_of_toNat_eq
    rw [BitVec.toNat_and, toNat_w a (by decide)]; exact and_255 a] at h

theorem LV.shr_byte {w : Nat} (a : BitVec 8) {n k : Nat} (hn : n ≤ 8) (hk : k = 2 ^ (8 - n) - 1) (hw : k < 2 ^ w) :
    LV w (a.setWidth 32 >>> n) ((a.toNat >>> n) &&& k) := by
  refine ⟨?_, Nat.and_lt_two_pow _ hw⟩
  rw [BitVec.toNat_ushiftRight, toNat_w a (by decide), hk, Nat.and_two_pow_sub_one_eq_mod, Nat.shiftRight_eq_div_pow]
  symm
  apply Nat.mod_eq_of_lt
  rw [Nat.div_lt_iff_lt_mul (Nat.two_pow_pos n), ← Nat.pow_add, Nat.sub_add_cancel hn]
  exact a.isLt

theorem LV.val8 {x : BitVec 32} {e : Nat} (h : LV 8 x e) : x = (n8 e).setWidth 32 := by
  apply BitVec.eq_of_toNat_eq
  rw [toNat_w _ (by decide), h.val, n8, BitVec.toNat_ofNat, Nat.mod_eq_of_lt h.lt]

theorem LV.val16 {x : BitVec 32} {e : Nat} (h : LV 16 x e) : x = (n16 e).setWidth 32 := by
  apply BitVec.eq_of_toNat_eq
  rw [toNat_w _ (by decide), h.val, n16, BitVec.toNat_ofNat, Nat.mod_eq_of_lt h.lt]

theorem cons_eq {α : Type} {a b : α} {l m : List α} (h : a = b) (h' : l = m) : a :: l = b :: m := by rw [h, h']

theorem insertf128_eq {a b a' b' : V4} (h : ∀ l, a l = a' l) (h' : ∀ l, b l = b' l) : insertf128 a b = insertf128 a' b' := by
  rw [funext h, funext h']

/-- Closes a goal `LV w x e` for the expressions of the shift statements. -/
macro "lv" : tactic => `(tactic| repeat' first
  | exact LV.and _ (by decide) rfl (by decide)
  | exact LV.shr_and _ (by decide) rfl (by decide)
  | exact LV.and_shl _ (by decide) rfl (by decide) (by decide)
  | exact LV.shl_byte _ (by decide) (by decide)
  | exact LV.shr_byte _ (by decide) rfl (by decide)
  | apply LV.or)

theorem p2BSX4Blk_lane (a b : Nat → Fin 4 → BitVec 16) :
    p2BSX4Blk (fun k => insertf128 (fun l => (a k l).setWidth 32) (fun l => (b k l).setWidth 32)) = (List.range 5).map fun r => insertf128
      (fun l => ((POLp2BSBlk (a 0 l).toNat (a 1 l).toNat (a 2 l).toNat (a 3 l).toNat).getD r 0).setWidth 32)
      (fun l => ((POLp2BSBlk (b 0 l).toNat (b 1 l).toNat (b 2 l).toNat (b 3 l).toNat).getD r 0).setWidth 32) := by
  rw [show List.range 5 = [0, 1, 2, 3, 4] from rfl]
  simp only [p2BSX4Blk, set1_cat, and8_cat, or8_cat, srli8_cat, slli8_cat, List.map_cons, List.map_nil, POLp2BSBlk, List.getD_cons_zero,
    List.getD_cons_succ]
  repeat' apply cons_eq
  all_goals first | rfl | (apply insertf128_eq <;> intro l <;> apply LV.val8 <;> lv)

theorem q2BSX4Blk_lane (a b : Nat → Fin 4 → BitVec 16) :
    q2BSX4Blk (fun k => insertf128 (fun l => (a k l).setWidth 32) (fun l => (b k l).setWidth 32)) = (List.range 13).map fun r => insertf128
      (fun l => ((POLq2BSBlk (a 0 l).toNat (a 1 l).toNat (a 2 l).toNat (a 3 l).toNat (a 4 l).toNat (a 5 l).toNat (a 6 l).toNat
        (a 7 l).toNat).getD r 0).setWidth 32)
      (fun l => ((POLq2BSBlk (b 0 l).toNat (b 1 l).toNat (b 2 l).toNat (b 3 l).toNat (b 4 l).toNat (b 5 l).toNat (b 6 l).toNat
        (b 7 l).toNat).getD r 0).setWidth 32) := by
  rw [show List.range 13 = [0, 1, 2, 3, 4, 5, 6, 7, 8, 9, 10, 11, 12] from rfl]
  simp only [q2BSX4Blk, set1_cat, and8_cat, or8_cat, srli8_cat, slli8_cat, List.map_cons, List.map_nil, POLq2BSBlk, List.getD_cons_zero,
    List.getD_cons_succ]
  repeat' apply cons_eq
  all_goals first | rfl | (apply insertf128_eq <;> intro l <;> apply LV.val8 <;> lv)

theorem BS2pX4Blk_lane (a b : Nat → Fin 4 → BitVec 8) :
    BS2pX4Blk (fun k => insertf128 (fun l => (a k l).setWidth 32) (fun l => (b k l).setWidth 32)) = (List.range 4).map fun r => insertf128
      (fun l => ((BS2POLpBlk (a 0 l).toNat (a 1 l).toNat (a 2 l).toNat (a 3 l).toNat (a 4 l).toNat).getD r 0).setWidth 32)
      (fun l => ((BS2POLpBlk (b 0 l).toNat (b 1 l).toNat (b 2 l).toNat (b 3 l).toNat (b 4 l).toNat).getD r 0).setWidth 32) := by
  rw [show List.range 4 = [0, 1, 2, 3] from rfl]
  simp only [BS2pX4Blk, set1_cat, and8_cat, or8_cat, srli8_cat, slli8_cat, List.map_cons, List.map_nil, BS2POLpBlk, List.getD_cons_zero,
    List.getD_cons_succ]
  repeat' apply cons_eq
  all_goals first | rfl | (apply insertf128_eq <;> intro l <;> apply LV.val16 <;> lv)

theorem BS2qX4Blk_lane (a b : Nat → Fin 4 → BitVec 8) :
    BS2qX4Blk (fun k => insertf128 (fun l => (a k l).setWidth 32) (fun l => (b k l).setWidth 32)) = (List.range 8).map fun r => insertf128
      (fun l => ((BS2POLqBlk (a 0 l).toNat (a 1 l).toNat (a 2 l).toNat (a 3 l).toNat (a 4 l).toNat (a 5 l).toNat (a 6 l).toNat
        (a 7 l).toNat (a 8 l).toNat (a 9 l).toNat (a 10 l).toNat (a 11 l).toNat (a 12 l).toNat).getD r 0).setWidth 32)
      (fun l => ((BS2POLqBlk (b 0 l).toNat (b 1 l).toNat (b 2 l).toNat (b 3 l).toNat (b 4 l).toNat (b 5 l).toNat (b 6 l).toNat
        (b 7 l).toNat (b 8 l).toNat (b 9 l).toNat (b 10 l).toNat (b 11 l).toNat (b 12 l).toNat).getD r 0).setWidth 32) := by
  rw [show List.range 8 = [0, 1, 2, 3, 4, 5, 6, 7] from rfl]
  simp only [BS2qX4Blk, set1_cat, and8_cat, or8_cat, srli8_cat, slli8_cat, List.map_cons, List.map_nil, BS2POLqBlk, List.getD_cons_zero,
    List.getD_cons_succ]
  repeat' apply cons_eq
  all_goals first | rfl | (apply insertf128_eq <;> intro l <;> apply LV.val16 <;> lv)

theorem BS2POLq4xBlk_lane (a b : Nat → Fin 4 → BitVec 8) :
    BS2POLq4xBlk (fun k => insertf128 (fun l => (a k l).setWidth 32) (fun l => (b k l).setWidth 32)) = (List.range 8).map fun r => insertf128
      (fun l => ((BS2POLqBlk (a 0 l).toNat (a 1 l).toNat (a 2 l).toNat (a 3 l).toNat (a 4 l).toNat (a 5 l).toNat (a 6 l).toNat
        (a 7 l).toNat (a 8 l).toNat (a 9 l).toNat (a 10 l).toNat (a 11 l).toNat (a 12 l).toNat).getD r 0).setWidth 32)
      (fun l => ((BS2POLqBlk (b 0 l).toNat (b 1 l).toNat (b 2 l).toNat (b 3 l).toNat (b 4 l).toNat (b 5 l).toNat (b 6 l).toNat
        (b 7 l).toNat (b 8 l).toNat (b 9 l).toNat (b 10 l).toNat (b 11 l).toNat (b 12 l).toNat).getD r 0).setWidth 32) := by
  rw [show List.range 8 = [0, 1, 2, 3, 4, 5, 6, 7] from rfl]
  simp only [BS2POLq4xBlk, set1_cat, and8_cat, or8_cat, srli8_cat, slli8_cat, List.map_cons, List.map_nil, BS2POLqBlk, List.getD_cons_zero,
    List.getD_cons_succ, ← BitVec.or_assoc]
  repeat' apply cons_eq
  all_goals first | rfl | (apply insertf128_eq <;> intro l <;> apply LV.val16 <;> lv)

end Saber.X4
