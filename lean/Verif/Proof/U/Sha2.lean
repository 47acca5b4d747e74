import Verif.Spec.Sha2
import Verif.Model.U.Sha2
import Verif.Proof.Indcpa
import Mathlib.Data.List.Induction
/-!
# SHA-2: facts used for both hash functions
-/
namespace Saber.U
open Saber.Spec.Sha2

theorem ofNat_shift (w n : Nat) (b : Byte) :
    BitVec.ofNat w (256 * n + b.toNat) = (BitVec.ofNat w n <<< 8) ||| b.setWidth w := by
  have h := b.isLt
  have e : 256 * n + b.toNat = (n <<< 8) ||| b.toNat := by
    rw [Nat.shiftLeft_eq, Nat.mul_comm n, show 256 * n = 2 ^ 8 * n from rfl, Nat.two_pow_add_eq_or_of_lt h]
  apply BitVec.eq_of_getLsbD_eq
  intro i hi
  rw [e]
  simp only [BitVec.getLsbD_ofNat, hi, decide_true, Bool.true_and, Nat.testBit_or, Nat.testBit_shiftLeft, BitVec.getLsbD_or,
    BitVec.getLsbD_shiftLeft, BitVec.getLsbD_setWidth, BitVec.testBit_toNat]
  by_cases h8 : i < 8
  · simp [h8, Nat.not_le.mpr h8]
  · have : i - 8 < w := by omega
    simp [h8, Nat.le_of_not_lt h8, this]

theorem wordOfBytes_snoc (w : Nat) (bs : List Byte) (b : Byte) :
    wordOfBytes w (bs ++ [b]) = (wordOfBytes w bs <<< 8) ||| b.setWidth w := by
  unfold wordOfBytes
  rw [List.foldl_append, List.foldl_cons, List.foldl_nil, ofNat_shift]

theorem wordOfBytes_nil (w : Nat) : wordOfBytes w [] = 0#w := rfl

theorem wordOfBytes_cons (w : Nat) (b : Byte) (bs : List Byte) :
    wordOfBytes w (b :: bs) = wordOfBytes w bs ||| (b.setWidth w <<< (8 * bs.length)) := by
  induction bs using List.reverseRecOn with
  | nil => simp [wordOfBytes]
  | append_singleton bs c ih =>
    rw [← List.cons_append, wordOfBytes_snoc, wordOfBytes_snoc, ih, BitVec.shiftLeft_or_distrib, ← BitVec.shiftLeft_add,
      List.length_append, List.length_singleton, Nat.mul_add, Nat.mul_one, BitVec.or_assoc, BitVec.or_assoc,
      BitVec.or_comm (BitVec.setWidth w c)]

theorem writeAt_cons {α : Type} (x : List α) (off : Nat) (b : α) (bs : List α) (h : off + 1 + bs.length ≤ x.length) :
    (writeAt x (off + 1) bs).set off b = writeAt x off (b :: bs) := by
  unfold writeAt
  rw [List.append_assoc, List.append_assoc, List.set_append_left _ _ (by simp; omega), List.take_add_one,
    List.getElem?_eq_getElem (by omega), Option.toList_some, List.set_append_right _ _ (by simp), List.length_take,
    Nat.min_eq_left (by omega), Nat.sub_self, List.set_cons_zero]
  simp [show off + 1 + bs.length = off + (bs.length + 1) by omega]

theorem byte_shift {w : Nat} (u : BitVec w) (k : Nat) : BitVec.ofNat 8 (u.toNat / 256 ^ k) = (u >>> (8 * k)).setWidth 8 := by
  apply BitVec.eq_of_toNat_eq
  simp only [BitVec.toNat_ofNat, BitVec.toNat_setWidth, BitVec.toNat_ushiftRight, Nat.shiftRight_eq_div_pow, Nat.pow_mul]

theorem drop_take_eq {α : Type} (a : List α) (d : α) (off n : Nat) (h : off + n ≤ a.length) :
    (a.drop off).take n = (List.range n).map fun i => a.getD (off + i) d := (map_getD_range a off n d h).symm

/-- The hash value after the whole blocks in `P`. -/
def process {w : Nat} (A : Alg w) (H : Vars w) (P : List Byte) : Vars w :=
  (List.range (P.length / (16 * (w / 8)))).foldl (fun H i => compress A H ((P.drop (16 * (w / 8) * i)).take (16 * (w / 8)))) H

theorem hash_eq {w : Nat} (A : Alg w) (M : List Byte) : hash A M = (process A (init w) (pad (w / 8) M)).bytes := rfl

theorem foldl_congr_mem {α β : Type} (f g : β → α → β) (l : List α) (h : ∀ x ∈ l, ∀ b, f b x = g b x) (b : β) :
    l.foldl f b = l.foldl g b := by
  induction l generalizing b with
  | nil => rfl
  | cons x l ih =>
    rw [List.foldl_cons, List.foldl_cons, h x (by simp), ih fun y hy => h y (by simp [hy])]

theorem process_append {w : Nat} (A : Alg w) (H : Vars w) (P Q : List Byte) (k : Nat) (hw : 0 < 16 * (w / 8))
    (hP : P.length = 16 * (w / 8) * k) : process A H (P ++ Q) = process A (process A H P) Q := by
  unfold process
  generalize 16 * (w / 8) = B at *
  rw [List.length_append, hP, Nat.mul_add_div hw, Nat.mul_div_cancel_left _ hw, List.range_add, List.foldl_append, List.foldl_map]
  rw [foldl_congr_mem _ (fun H i => compress A H ((P.drop (B * i)).take B)) (List.range k)]
  · refine foldl_congr_mem _ _ _ (fun i _ b => ?_) _
    have : List.drop (B * (k + i)) (P ++ Q) = List.drop (B * i) Q := by
      rw [Nat.mul_add, List.drop_append, List.drop_of_length_le (by omega), List.nil_append]
      congr 1; omega
    rw [this]
  · intro i hi b
    have hi : i < k := by simpa using hi
    have : B * (i + 1) ≤ B * k := Nat.mul_le_mul_left _ hi
    rw [Nat.mul_add, Nat.mul_one] at this
    rw [List.drop_append_of_le_length (by omega), List.take_append_of_le_length (by simp; omega)]

theorem process_nil {w : Nat} (A : Alg w) (H : Vars w) : process A H [] = H := by simp [process]

theorem process_one {w : Nat} (A : Alg w) (H : Vars w) (P : List Byte) (hw : 0 < 16 * (w / 8)) (hP : P.length = 16 * (w / 8)) :
    process A H P = compress A H P := by
  unfold process
  rw [hP, Nat.div_self hw]
  simp [← hP]

theorem length_bytesOfNat (n x : Nat) : (bytesOfNat n x).length = n := by simp [bytesOfNat]

theorem schedule_lt {w : Nat} (A : Alg w) (b : List Byte) (t : Nat) (h : t < 16) :
    schedule A b t = wordOfBytes w ((b.drop (w / 8 * t)).take (w / 8)) := by rw [schedule, if_pos h]

theorem schedule_add {w : Nat} (A : Alg w) (b : List Byte) (t : Nat) :
    schedule A b (t + 16) = A.smallSigma1 (schedule A b (t + 14)) + schedule A b (t + 9) + A.smallSigma0 (schedule A b (t + 1))
      + schedule A b t := by
  rw [schedule, if_neg (by omega), show t + 16 - 2 = t + 14 by omega, show t + 16 - 7 = t + 9 by omega,
    show t + 16 - 15 = t + 1 by omega, show t + 16 - 16 = t by omega]

theorem writeAt_next {α : Type} (x us vs : List α) (n : Nat) (hn : us.length = n) (h : n + vs.length ≤ x.length) :
    writeAt (writeAt x 0 us) n vs = writeAt x 0 (us ++ vs) := by
  have := writeAt_append x 0 us vs (by omega)
  rwa [Nat.zero_add, hn] at this

theorem wr_next {α : Type} (x us : List α) (v : α) (n : Nat) (hn : us.length = n) (h : n + 1 ≤ x.length) :
    wr (writeAt x 0 us) n v = .ok (writeAt x 0 (us ++ [v])) := by
  have hl := length_writeAt x 0 us (by omega)
  rw [wr_ok (by omega), set_eq_writeAt _ _ _ (by omega), writeAt_next _ _ _ _ hn (by simpa using h)]

end Saber.U
