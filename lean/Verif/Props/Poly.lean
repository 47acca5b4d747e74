import Verif.Proof.Verify
import Verif.Proof.Precision
import Verif.Proof.Quotient
import Verif.Proof.Poly
import Verif.Proof.RoundTrip
import Mathlib.Data.Nat.Choose.Basic
/-!
# Properties of the building blocks: C09 to C22
-/
namespace Saber.Props
open Spec

/-! ### Comparison and conditional move -/

/-- C09: `verify` returns 0 if the two byte strings are equal and 1 otherwise, for every length. -/
theorem C09_verify (a : List Byte) (aOff : Nat) (b : List Byte) (bOff len : Nat) (ha : aOff + len ≤ a.length) (hb : bOff + len ≤ b.length) :
    ∃ v, verify a aOff b bOff len = .ok v ∧ (v = 0 ↔ ∀ i, i < len → a.getD (aOff + i) 0 = b.getD (bOff + i) 0) ∧ (v = 0 ∨ v = 1) := by
  refine ⟨_, verify_ok a aOff b bOff len ha hb, ?_, ?_⟩
  · rw [← take_drop_eq_iff a aOff b bOff len ha hb]
    split <;> simp [*]
  · split <;> simp

/-- Strings that differ in the last compared byte, and strings that differ only after it. -/
example : verify [1, 2, 3] 0 [1, 2, 4] 0 3 = .ok 1 ∧ verify [1, 2, 3] 0 [1, 2, 4] 0 2 = .ok 0 := by decide

/-- C10: `cmov` copies `len` bytes if `b = 1`, none if `b = 0`, and changes nothing else. -/
theorem C10_cmov (r : List Byte) (rOff : Nat) (x : List Byte) (xOff len : Nat) (b : Byte) (hb : b = 0 ∨ b = 1)
    (hr : rOff + len ≤ r.length) (hx : xOff + len ≤ x.length) :
    ∃ r', cmov r rOff x xOff len b = .ok r' ∧ r'.length = r.length ∧
      ∀ i, r'.getD i 0 = if b = 1 ∧ rOff ≤ i ∧ i < rOff + len then x.getD (xOff + (i - rOff)) 0 else r.getD i 0 := by
  rcases hb with rfl | rfl
  · refine ⟨_, cmov_zero_ok r rOff x xOff len hr hx, rfl, fun i => ?_⟩
    rw [if_neg (by simp)]
  · refine ⟨_, cmov_one_ok r rOff x xOff len hr hx, length_writeAt _ _ _ ?_, fun i => ?_⟩
    · simp; omega
    · have hl : ((x.drop xOff).take len).length = len := by simp; omega
      by_cases h : rOff ≤ i ∧ i < rOff + len
      · rw [if_pos ⟨rfl, h⟩]
        unfold writeAt
        rw [List.append_assoc, List.getD_append_right _ _ _ _ (by simp; omega), List.getD_append _ _ _ _ (by simp; omega)]
        have : (r.take rOff).length = rOff := by simp; omega
        rw [this]
        simp only [List.getD_eq_getElem?_getD, List.getElem?_take, List.getElem?_drop]
        rw [if_pos (by omega)]
      · rw [if_neg (by simpa using h)]
        unfold writeAt
        by_cases h1 : i < rOff
        · rw [List.append_assoc, List.getD_append _ _ _ _ (by simp; omega)]
          simp only [List.getD_eq_getElem?_getD, List.getElem?_take, if_pos h1]
        · have : (r.take rOff ++ (x.drop xOff).take len).length = rOff + len := by rw [List.length_append, hl]; simp; omega
          rw [List.getD_append_right _ _ _ _ (by omega), this, hl]
          simp only [List.getD_eq_getElem?_getD, List.getElem?_drop]
          rw [show rOff + len + (i - (rOff + len)) = i by omega]

example : cmov [1, 2, 3] 0 [7, 8, 9] 1 2 1 = .ok [8, 9, 3] ∧ cmov [1, 2, 3] 0 [7, 8, 9] 1 2 0 = .ok [1, 2, 3] := by decide

/-! ### Multiplication -/

/-- C11: `res += a*b` in `R_q = Z_q[X]/(X^256+1)`, for all contents of the operands. -/
theorem C11_poly_mul_acc (a b res : List (BitVec 16)) (ha : a.length = 256) (hb : b.length = 256) (hr : res.length = 256) :
    ∃ r, poly_mul_acc a b res = .ok r ∧ r.length = 256 ∧ toRq (toP r) = toRq (toP res) + toRq (toP a) * toRq (toP b) := by
  obtain ⟨r, h1, h2, h3⟩ := poly_mul_acc_ok ha hb hr
  refine ⟨r, h1, h2, ?_⟩
  rw [← toRq_negMul, ← toRq_add]
  exact toRq_congr h3

/-- C11, coefficient by coefficient. -/
theorem C11_poly_mul_acc_coeff (a b res : List (BitVec 16)) (ha : a.length = 256) (hb : b.length = 256) (hr : res.length = 256) :
    ∃ r, poly_mul_acc a b res = .ok r ∧ r.length = 256 ∧ ∀ k : Fin 256, toP r k % 8192 =
      (toP res k + ∑ i : Fin 256, (if i ≤ k then 1 else -1) * (toP a i * toP b (k - i))) % 8192 :=
  poly_mul_acc_ok ha hb hr

/-- The equation in `R_q` fixes all 256 coefficients modulo `q`. -/
theorem C11_Rq_coefficients (a b : Poly) : toRq a = toRq b ↔ ∀ k, a k % 8192 = b k % 8192 :=
  ⟨fun h => toRq_inj h, fun h => toRq_congr h⟩

/-- C12: the result is in general wrong modulo `2^14`, already for the product of `1` and `-3 (1 + X^64 + X^128 + X^192)`. -/
theorem C12_precision_13_bits :
    ∃ a b r : List (BitVec 16), a.length = 256 ∧ b.length = 256 ∧ poly_mul_acc a b (List.replicate 256 0) = .ok r ∧
      ∃ k : Fin 256, toP r k % 16384 ≠ (∑ i : Fin 256, (if i ≤ k then 1 else -1) * (toP a i * toP b (k - i))) % 16384 := by
  obtain ⟨r, h1, h2, h3⟩ := prec_mul
  refine ⟨precA, precB, r, by decide +kernel, by decide +kernel, h1, ⟨128, by decide⟩, ?_⟩
  rw [toP, h3, Finset.sum_eq_single 0]
  · decide +kernel
  · intro i _ hi
    have : toP precA i = 0 := by
      obtain ⟨i, h⟩ := i
      cases i with
      | zero => exact absurd rfl hi
      | succ i => rw [toP, precA, List.getD_cons_succ, getD_replicate_zero]; rfl
    rw [this, zero_mul, mul_zero]
  · intro h; exact absurd (Finset.mem_univ _) h

/-- C13: the 64-coefficient multiplication is exact modulo `2^16`. -/
theorem C13_karatsuba (a b r0 : List (BitVec 16)) (ha : a.length = 64) (hb : b.length = 64) (hr : r0.length = 127) :
    ∃ r, karatsuba_simple a b r0 = .ok r ∧ r.length = 127 ∧
      ∀ k, k < 127 → r.getD k 0 = ∑ p ∈ Finset.antidiagonal k, a.getD p.1 0 * b.getD p.2 0 := by
  obtain ⟨r, h1, h2, h3⟩ := karatsuba_simple_ok ha hb hr
  refine ⟨r, h1, h2, fun k hk => ?_⟩
  rw [h3 k hk, Polynomial.coeff_mul]
  refine Finset.sum_congr rfl fun p _ => ?_
  have key : ∀ (l : List (BitVec 16)) (n : Nat), l.length = 64 → (S l 0 64).coeff n = l.getD n 0 := by
    intro l n hl
    rw [S_coeff, Nat.zero_add]
    split
    · rfl
    · rw [List.getD_eq_default _ _ (by omega)]
  rw [key a _ ha, key b _ hb]

/-- C14: `res += A*s` or `res += A^T*s` in `R_q`, depending on the flag. -/
theorem C14_MatrixVectorMul (P : PSet) (A : List (List (List (BitVec 16)))) (s res : List (List (BitVec 16))) (t : Int)
    (hA : IsMat P.L A) (hs : IsVec P.L s) (hr : IsVec P.L res) :
    ∃ r, MatrixVectorMul P A s res t = .ok r ∧ IsVec P.L r ∧
      ∀ i, toRq (toV P.L r i) = toRq (toV P.L res i) +
        ∑ j, toRq (if t = 1 then toM P.L A j i else toM P.L A i j) * toRq (toV P.L s j) := by
  obtain ⟨r, h1, h2, h3⟩ := MatrixVectorMul_ok P A s res t hA hs hr
  refine ⟨r, h1, h2, fun i => ?_⟩
  rw [toRq_congr (h3 i), toRq_add, add_right_inj]
  unfold matVec
  rw [toRq_sum]
  simp only [toRq_negMul]
  split <;> rfl

/-- C14: `res += sum b_j s_j` in `R_q`. -/
theorem C14_InnerProd (P : PSet) (b s : List (List (BitVec 16))) (res : List (BitVec 16)) (hb : IsVec P.L b) (hs : IsVec P.L s)
    (hr : res.length = 256) :
    ∃ r, InnerProd P b s res = .ok r ∧ r.length = 256 ∧
      toRq (toP r) = toRq (toP res) + ∑ j, toRq (toV P.L b j) * toRq (toV P.L s j) := by
  obtain ⟨r, h1, h2, h3⟩ := InnerProd_ok P b s res hb hs hr
  refine ⟨r, h1, h2, ?_⟩
  rw [toRq_congr h3, toRq_add, add_right_inj]
  unfold innerProd
  rw [toRq_sum]
  simp only [toRq_negMul]

theorem toRq_zero (p : Poly) (h : ∀ k, p k = 0) : toRq p = 0 := by
  unfold toRq polyAt
  exact Finset.sum_eq_zero fun i _ => by rw [h]; simp

/-- C15: the value computed from `A^T s` with `s'` and the value computed from `A s'` with `s` are equal in `R_q`. -/
theorem C15_exchange (P : PSet) (A : List (List (List (BitVec 16)))) (s s' : List (List (BitVec 16)))
    (hA : IsMat P.L A) (hs : IsVec P.L s) (hs' : IsVec P.L s') :
    ∃ b v b' v', MatrixVectorMul P A s (zeroVec P.L) 1 = .ok b ∧ InnerProd P b s' (List.replicate 256 0) = .ok v ∧
      MatrixVectorMul P A s' (zeroVec P.L) 0 = .ok b' ∧ InnerProd P b' s (List.replicate 256 0) = .ok v' ∧
      ∀ k : Fin 256, toP v k % 8192 = toP v' k % 8192 := by
  obtain ⟨b, h1, h2, h3⟩ := C14_MatrixVectorMul P A s (zeroVec P.L) 1 hA hs (isVec_zeroVec _)
  obtain ⟨b', h1', h2', h3'⟩ := C14_MatrixVectorMul P A s' (zeroVec P.L) 0 hA hs' (isVec_zeroVec _)
  obtain ⟨v, g1, g2, g3⟩ := C14_InnerProd P b s' (List.replicate 256 0) h2 hs' (List.length_replicate)
  obtain ⟨v', g1', g2', g3'⟩ := C14_InnerProd P b' s (List.replicate 256 0) h2' hs (List.length_replicate)
  refine ⟨b, v, b', v', h1, g1, h1', g1', (C11_Rq_coefficients _ _).1 ?_⟩
  rw [g3, g3', add_right_inj]
  have z : ∀ i, toRq (toV P.L (zeroVec P.L) i) = 0 := fun i => toRq_zero _ fun k => toV_zeroVec _ i k
  simp only [h3, h3', z, zero_add, if_true, Finset.sum_mul]
  simp only [show ¬ ((0 : Int) = 1) by decide, if_false]
  rw [Finset.sum_comm]
  refine Finset.sum_congr rfl fun i _ => Finset.sum_congr rfl fun j _ => ?_
  ring

end Saber.Props
