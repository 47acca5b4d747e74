import Verif.Proof.Indcpa
import Mathlib.Tactic.LinearCombination
/-!
# Round trips of the bit packings (about the specification)
-/
namespace Saber
open Spec

theorem bitAt_pack (k : Nat) (p : Poly) (n : Nat) (h : n < 256 * k) : bitAt (pack k p) n = streamBit k p n := by
  unfold bitAt pack
  rw [getD_map_range _ _ _ _ (by omega), BitVec.getLsbD_ofNat, natOfBits_testBit]
  rw [show 8 * (n / 8) + n % 8 = n by omega]
  have := Nat.mod_lt n (show 0 < 8 by omega)
  simp [this]

theorem intBit_toNat (x : Int) (j : Nat) : ((intBit x j).toNat : Int) = x / 2 ^ j % 2 := by
  unfold intBit
  have h0 := Int.emod_nonneg (x / 2 ^ j) (show (2 : Int) ≠ 0 by decide)
  have h1 := Int.emod_lt_of_pos (x / 2 ^ j) (show (0 : Int) < 2 by decide)
  by_cases h : x / 2 ^ j % 2 = 1
  · simp [h]
  · simp [h]; omega

theorem natOfBits_intBit (k : Nat) (x : Int) : (natOfBits k (intBit x) : Int) = x % 2 ^ k := by
  induction k with
  | zero => simp [natOfBits, Int.emod_one]
  | succ k ih =>
    rw [natOfBits_succ]
    push_cast
    rw [ih, intBit_toNat]
    have e1 := Int.emod_add_mul_ediv x (2 ^ k)
    have e2 := Int.emod_add_mul_ediv (x / 2 ^ k) 2
    have e3 := Int.emod_add_mul_ediv x (2 ^ (k + 1))
    have e4 : x / 2 ^ (k + 1) = x / 2 ^ k / 2 := by rw [pow_succ, Int.ediv_ediv_of_nonneg (by positivity)]
    rw [e4, pow_succ] at e3
    rw [pow_succ]
    generalize (2 : Int) ^ k = c at *
    generalize x / c / 2 = d at *
    rw [← e2] at e1
    generalize x / c % 2 = b at *
    linear_combination e1 - e3

theorem unpack_pack (k : Nat) (p : Poly) (i : Fin 256) (rest : List Byte) : unpack k (pack k p ++ rest) i = p i % 2 ^ k := by
  rw [← unpack_take k (32 * k) _ (le_refl _), List.take_append_of_le_length (by simp), List.take_of_length_le (by simp)]
  unfold unpack
  rw [← natOfBits_intBit]
  refine congrArg (Nat.cast (R := Int)) (natOfBits_congr fun j hj => ?_)
  have hk : 0 < k := by omega
  have := Nat.mul_le_mul_left k (show i.val + 1 ≤ 256 from i.isLt)
  rw [Nat.mul_succ] at this
  rw [bitAt_pack _ _ _ (by omega)]
  unfold streamBit
  rw [Nat.mul_add_mod, Nat.mod_eq_of_lt hj, Nat.mul_add_div hk, Nat.div_eq_of_lt hj]
  congr 2
  apply Fin.ext
  have := i.isLt
  simp [Fin.ofNat, Nat.mod_eq_of_lt this]

theorem pack_unpack (k : Nat) (bs : List Byte) (h : 32 * k ≤ bs.length) : pack k (unpack k bs) = bs.take (32 * k) := by
  apply bytes_ext
  · simp [h]
  · intro m hm j hj
    rw [length_pack] at hm
    unfold pack
    rw [getD_map_range _ _ _ _ hm, getD_take _ _ _ _ hm, BitVec.getLsbD_ofNat, natOfBits_testBit]
    simp only [hj, decide_true, Bool.true_and]
    have hk : 0 < k := by omega
    have hd : (8 * m + j) / k < 256 := by
      rw [Nat.div_lt_iff_lt_mul hk]; omega
    unfold streamBit unpack
    rw [intBit_natCast, natOfBits_testBit]
    simp only [Nat.mod_lt _ hk, decide_true, Bool.true_and]
    rw [show (Fin.ofNat 256 ((8 * m + j) / k)).val = (8 * m + j) / k by simp [Fin.ofNat, Nat.mod_eq_of_lt hd], Nat.div_add_mod]
    unfold bitAt
    rw [show (8 * m + j) / 8 = m by omega, show (8 * m + j) % 8 = j by omega]

theorem packVec_drop (k : Nat) {L : Nat} (v : Fin L → Poly) (i : Fin L) :
    ∃ rest, (packVec k v).drop (32 * k * i.val) = pack k (v i) ++ rest := by
  have key : ∀ (l : List (Fin L)) (n : Nat) (h : n < l.length), ∃ rest,
      (l.flatMap fun i => pack k (v i)).drop (32 * k * n) = pack k (v l[n]) ++ rest := by
    intro l
    induction l with
    | nil => intro n h; simp at h
    | cons a l ih =>
      intro n h
      cases n with
      | zero => exact ⟨l.flatMap fun i => pack k (v i), by simp⟩
      | succ n =>
        obtain ⟨rest, hr⟩ := ih n (by simpa using h)
        refine ⟨rest, ?_⟩
        rw [List.flatMap_cons, Nat.mul_succ, List.drop_append]
        rw [List.drop_of_length_le (by simp), length_pack, Nat.add_sub_cancel, List.nil_append, hr]
        rfl
  obtain ⟨rest, h⟩ := key (List.finRange L) i.val (by simp)
  exact ⟨rest, by rw [packVec, h]; simp⟩

theorem unpackVec_packVec (k : Nat) {L : Nat} (v : Fin L → Poly) (rest : List Byte) (i : Fin L) (n : Fin 256) :
    unpackVec k L (packVec k v ++ rest) i n = v i n % 2 ^ k := by
  rw [← unpackVec_take k L (L * (32 * k)) _ (le_refl _), List.take_append_of_le_length (by simp), List.take_of_length_le (by simp)]
  unfold unpackVec
  obtain ⟨r, h⟩ := packVec_drop k v i
  rw [h, unpack_pack]

theorem packVec_unpackVec (k L : Nat) (bs : List Byte) (h : L * (32 * k) ≤ bs.length) :
    packVec k (unpackVec k L bs) = bs.take (L * (32 * k)) := by
  unfold packVec unpackVec
  rw [finRange_flatMap_val L (fun i => pack k (unpack k (bs.drop (32 * k * i))))]
  induction L with
  | zero => simp
  | succ L ih =>
    rw [Nat.succ_mul] at h
    rw [List.range_succ, List.flatMap_append, ih (by omega), Nat.succ_mul L, List.take_add]
    congr 1
    simp only [List.flatMap_cons, List.flatMap_nil, List.append_nil]
    rw [pack_unpack _ _ (by rw [List.length_drop, mul_comm (32 * k) L]; omega), mul_comm L]

end Saber
