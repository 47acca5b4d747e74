import Verif.Spec.Arrays
import Mathlib.Tactic.IntervalCases
import Mathlib.Data.List.GetD
import Mathlib.Tactic.Ring
/-!
# Lemmas about bit streams
-/
namespace Saber
open Spec

theorem natOfBits_succ (w : Nat) (f : Nat → Bool) :
    natOfBits (w + 1) f = natOfBits w f + (f w).toNat * 2 ^ w := by
  simp [natOfBits, List.range_succ]

theorem natOfBits_lt (w : Nat) (f : Nat → Bool) : natOfBits w f < 2 ^ w := by
  induction w with
  | zero => simp [natOfBits]
  | succ w ih =>
    rw [natOfBits_succ, Nat.pow_succ]
    have : (f w).toNat ≤ 1 := by cases f w <;> simp
    have := Nat.mul_le_mul_right (2 ^ w) this
    omega

theorem natOfBits_testBit (w : Nat) (f : Nat → Bool) (j : Nat) :
    (natOfBits w f).testBit j = (decide (j < w) && f j) := by
  induction w with
  | zero => simp [natOfBits]
  | succ w ih =>
    rw [natOfBits_succ, Nat.add_comm, Nat.mul_comm]
    rw [Nat.testBit_two_pow_mul_add _ (natOfBits_lt w f), ih]
    by_cases h : j < w
    · simp [h]; omega
    · simp only [h, if_false]
      by_cases h2 : j = w
      · subst h2; cases f j <;> simp
      · have : (f w).toNat.testBit (j - w) = false := by
          apply Nat.testBit_lt_two_pow
          have : 1 ≤ j - w := by omega
          calc (f w).toNat < 2 ^ 1 := by cases f w <;> simp
            _ ≤ 2 ^ (j - w) := Nat.pow_le_pow_right (by omega) this
        rw [this]; simp; omega

theorem natOfBits_congr {w : Nat} {f g : Nat → Bool} (h : ∀ j < w, f j = g j) :
    natOfBits w f = natOfBits w g := by
  induction w with
  | zero => rfl
  | succ w ih => rw [natOfBits_succ, natOfBits_succ, ih fun j hj => h j (by omega), h w (by omega)]

theorem intBit_natCast (x j : Nat) : intBit (x : Int) j = x.testBit j := by
  rw [Nat.testBit_eq_decide_div_mod_eq, intBit]
  congr 1
  apply propext
  constructor <;> intro h
  · have : ((x / 2 ^ j % 2 : Nat) : Int) = 1 := by push_cast; exact h
    exact_mod_cast this
  · have : ((x / 2 ^ j % 2 : Nat) : Int) = (1 : Nat) := by rw [h]
    push_cast at this; exact this

@[simp] theorem length_ofP (p : Poly) : (ofP p).length = 256 := by simp [ofP]

@[simp] theorem length_pack (k : Nat) (p : Poly) : (pack k p).length = 32 * k := by simp [pack]

theorem streamBit_toP (k : Nat) (data : List (BitVec 16)) (n : Nat) (h : n / k < 256) :
    streamBit k (toP data) n = (data.getD (n / k) 0).getLsbD (n % k) := by
  simp only [streamBit, toP, intBit_natCast]
  rw [BitVec.testBit_toNat]
  congr 2
  simp [Fin.ofNat, Nat.mod_eq_of_lt h]

theorem getD_flatMap_range {α : Type} (w : Nat) (hw0 : 0 < w) (vs : Nat → List α) (hw : ∀ j, (vs j).length = w)
    (d : α) (n m : Nat) (hm : m < w * n) :
    ((List.range n).flatMap vs).getD m d = (vs (m / w)).getD (m % w) d := by
  induction n with
  | zero => simp at hm
  | succ n ih =>
    have hl : ((List.range n).flatMap vs).length = w * n := by
      rw [List.length_flatMap]; simp only [hw]
      rw [List.map_const', List.sum_replicate_nat, List.length_range, Nat.mul_comm]
    rw [List.range_succ, List.flatMap_append]
    by_cases h : m < w * n
    · rw [List.getD_append _ _ _ _ (by omega), ih h]
    · rw [List.getD_append_right _ _ _ _ (by omega), hl]
      have e : w * (n + 1) = w * n + w := Nat.mul_succ ..
      have h1 : m / w = n := by
        rw [Nat.div_eq_iff hw0]; constructor
        · rw [Nat.mul_comm]; omega
        · rw [Nat.mul_comm]; omega
      have h2 : m % w = m - w * n := by
        have := Nat.div_add_mod m w; rw [h1] at this; omega
      rw [h1, h2]; simp

theorem length_flatMap_range {α : Type} (w : Nat) (vs : Nat → List α) (hw : ∀ j, (vs j).length = w) (n : Nat) :
    ((List.range n).flatMap vs).length = w * n := by
  rw [List.length_flatMap]; simp only [hw]
  rw [List.map_const', List.sum_replicate_nat, List.length_range, Nat.mul_comm]

theorem ext_getD {α : Type} {a b : List α} (d : α) (hl : a.length = b.length)
    (h : ∀ i, i < a.length → a.getD i d = b.getD i d) : a = b := by
  apply List.ext_getElem hl
  intro i h1 h2
  have := h i h1
  simpa [h1, h2] using this

theorem getD_map_range {α : Type} (f : Nat → α) (n i : Nat) (d : α) (h : i < n) :
    ((List.range n).map f).getD i d = f i := by
  simp [h]

/-- Recognising a packing loop. -/
theorem pack_of_blocks (k cs cb n : Nat) (hcb : 0 < cb) (hk : 0 < k) (hkc : cs * k = 8 * cb) (hn : cs * n = 256)
    (data : List (BitVec 16)) (vs : Nat → List Byte) (hw : ∀ j, (vs j).length = cb)
    (hbits : ∀ q, q < n → ∀ r, r < cb → ∀ j, j < 8 →
      ((vs q).getD r 0).getLsbD j = (data.getD (cs * q + (8 * r + j) / k) 0).getLsbD ((8 * r + j) % k)) :
    (List.range n).flatMap vs = pack k (toP data) := by
  have hlen : cb * n = 32 * k := by
    have : 8 * (cb * n) = 256 * k := by
      calc 8 * (cb * n) = (8 * cb) * n := by ring
        _ = cs * k * n := by rw [hkc]
        _ = cs * n * k := by ring
        _ = _ := by rw [hn]
    omega
  apply ext_getD 0
  · rw [length_flatMap_range _ _ hw, length_pack, hlen]
  · intro m hm
    rw [length_flatMap_range _ _ hw] at hm
    rw [getD_flatMap_range cb hcb vs hw 0 n m hm, pack, getD_map_range _ _ _ _ (by omega)]
    apply BitVec.eq_of_getLsbD_eq
    intro j hj
    have hq : m / cb < n := by
      rw [Nat.div_lt_iff_lt_mul hcb, Nat.mul_comm]; exact hm
    rw [hbits (m / cb) hq (m % cb) (Nat.mod_lt _ hcb) j hj]
    rw [BitVec.getLsbD_ofNat, natOfBits_testBit]
    simp only [hj, decide_true, Bool.true_and]
    have e : 8 * m + j = k * (cs * (m / cb)) + (8 * (m % cb) + j) := by
      have h1 := Nat.div_add_mod m cb
      calc 8 * m + j = 8 * (cb * (m / cb) + m % cb) + j := by rw [h1]
        _ = (8 * cb) * (m / cb) + (8 * (m % cb) + j) := by ring
        _ = (cs * k) * (m / cb) + (8 * (m % cb) + j) := by rw [hkc]
        _ = _ := by ring
    have e1 : (8 * m + j) / k = cs * (m / cb) + (8 * (m % cb) + j) / k := by
      rw [e, Nat.mul_add_div hk]
    have e2 : (8 * m + j) % k = (8 * (m % cb) + j) % k := by
      rw [e, Nat.mul_add_mod]
    rw [streamBit_toP _ _ _ ?_, e1, e2]
    rw [Nat.div_lt_iff_lt_mul hk]
    omega

theorem ofInt_natCast (w x : Nat) : BitVec.ofInt w (x : Int) = BitVec.ofNat w x := by
  simp

theorem getD_drop {α : Type} (a : List α) (off i : Nat) (d : α) : (a.drop off).getD i d = a.getD (off + i) d := by
  simp [List.getD_eq_getElem?_getD, List.getElem?_drop]

/-- Recognising an unpacking loop. -/
theorem unpack_of_blocks (k cs cb n : Nat) (hcs : 0 < cs) (hkc : cs * k = 8 * cb) (hn : cs * n = 256)
    (bytes : List Byte) (off : Nat) (vs : Nat → List (BitVec 16)) (hw : ∀ j, (vs j).length = cs)
    (hbits : ∀ q, q < n → ∀ r, r < cs → ∀ j, j < 16 →
      ((vs q).getD r 0).getLsbD j =
        (decide (j < k) && (bytes.getD (off + cb * q + (k * r + j) / 8) 0).getLsbD ((k * r + j) % 8))) :
    (List.range n).flatMap vs = ofP (unpack k (bytes.drop off)) := by
  apply ext_getD 0
  · rw [length_flatMap_range _ _ hw, length_ofP, hn]
  · intro m hm
    rw [length_flatMap_range _ _ hw] at hm
    rw [getD_flatMap_range cs hcs vs hw 0 n m hm, ofP, getD_map_range _ _ _ _ (by omega)]
    apply BitVec.eq_of_getLsbD_eq
    intro j hj
    have hq : m / cs < n := by
      rw [Nat.div_lt_iff_lt_mul hcs, Nat.mul_comm]; exact hm
    rw [hbits (m / cs) hq (m % cs) (Nat.mod_lt _ hcs) j hj]
    rw [unpack, ofInt_natCast, BitVec.getLsbD_ofNat, natOfBits_testBit]
    simp only [hj, decide_true, Bool.true_and]
    congr 1
    rw [bitAt]
    have hm' : (Fin.ofNat 256 m).val = m := by simp [Fin.ofNat]; omega
    rw [hm']
    have e : k * m + j = 8 * (cb * (m / cs)) + (k * (m % cs) + j) := by
      have h1 := Nat.div_add_mod m cs
      calc k * m + j = k * (cs * (m / cs) + m % cs) + j := by rw [h1]
        _ = (cs * k) * (m / cs) + (k * (m % cs) + j) := by ring
        _ = (8 * cb) * (m / cs) + (k * (m % cs) + j) := by rw [hkc]
        _ = _ := by ring
    rw [e, Nat.mul_add_div (by omega), Nat.mul_add_mod]
    rw [getD_drop, Nat.add_assoc]

end Saber
