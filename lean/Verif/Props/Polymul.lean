import Verif.Proof.Arm.Polymul
import Verif.Spec.Ring
/-!
# C78: the product of two polynomials by `polymul_asm`

`polymulF conc` runs the instructions of `polymul_asm` and of the functions it calls on the machine of `Model/Arm/Machine.lean`.  `g` gives arbitrary
contents of the registers that do not hold arguments; `stk` is the stack below the stack pointer, with arbitrary contents.
-/
namespace Saber.Props
open Spec Arm

/-- C78: for all arrays and all contents of registers, stack and result array, `polymul_asm` returns to its caller, stores the 511 coefficients of the
product of `a` and `b` modulo `q = 2^13` in `r`, leaves `a` and `b` as they were, stays within the three arrays and 3792 bytes of stack, and
preserves the stack pointer and `r4`-`r11` as required by the procedure call standard. -/
theorem C78_polymul (g : Reg → Val conc.W) (hg : ∀ r, g r ≠ .undef) (r : List (Cell (BitVec 16))) (a b : List (BitVec 16))
    (stk : List (Cell (BitVec 16))) (hr : r.length = 511) (ha : a.length = 256) (hb : b.length = 256) (hs : stk.length = 1896) :
    ∃ s r' stk', polymulF conc (polymulStart g r a b stk) = some s ∧ s.mem = [halves r', halves a, halves b, stk'] ∧ r'.length = 511 ∧
      (∀ n, n < 511 → ((r'.getD n 0).toNat : Int) % 8192 = wideMul (toP a) (toP b) n % 8192) ∧
      s.pc = (polymulStart g r a b stk).lr ∧ s.sp = (polymulStart g r a b stk).sp ∧
      s.r4 = g .r4 ∧ s.r5 = g .r5 ∧ s.r6 = g .r6 ∧ s.r7 = g .r7 ∧ s.r8 = g .r8 ∧ s.r9 = g .r9 ∧ s.sl = g .sl ∧ s.fp = g .fp := by
  obtain ⟨s, r', stk', h1, h2, h3, h4, h5, h6, h⟩ := polymul_run g hg r a b stk hr ha hb hs
  refine ⟨s, r', stk', h1, h2, h3, h4, h5, ?_, h⟩
  rw [h6]
  show _ = Val.a (Atom.ptr 3 (2 * stk.length))
  rw [hs]
  rfl

/-- The product in `Z[X]/(X^256+1)` from the coefficients of the product. -/
theorem negMul_wideMul (a b : Poly) (k : Fin 256) : negMul a b k = wideMul a b k.val - wideMul a b (k.val + 256) := by
  unfold negMul wideMul
  rw [← Finset.sum_sub_distrib]
  refine Finset.sum_congr rfl fun i _ => ?_
  rw [← Finset.sum_sub_distrib, Finset.sum_eq_single (k - i)]
  · have hk := k.isLt
    have hi := i.isLt
    by_cases h : i ≤ k
    · have e : (k - i).val = k.val - i.val := Fin.sub_val_of_le h
      have h' : i.val ≤ k.val := h
      rw [if_pos h, if_pos (by omega), if_neg (by omega), sub_zero, one_mul]
    · have h' : ¬ i.val ≤ k.val := h
      have e : (k - i).val = k.val + 256 - i.val := by rw [Fin.sub_def]; simp only; omega
      rw [if_neg h, if_neg (by omega), if_pos (by omega), zero_sub, neg_one_mul]
  · intro j _ hj
    have hk := k.isLt
    have hi := i.isLt
    have hjl := j.isLt
    rw [if_neg, if_neg, sub_zero]
    · intro e
      apply hj
      apply Fin.ext
      rw [Fin.sub_def]
      simp only
      omega
    · intro e
      apply hj
      apply Fin.ext
      rw [Fin.sub_def]
      simp only
      omega
  · intro h
    exact absurd (Finset.mem_univ _) h

/-- C78: the reduction that the comments of poly_mul.c do with the result, `res[i] = r[i] - r[i + 256]`, gives the product in `Z[X]/(X^256+1)`; the
coefficient `r[511]` does not exist and counts as zero. -/
theorem C78_reduced (g : Reg → Val conc.W) (hg : ∀ r, g r ≠ .undef) (r : List (Cell (BitVec 16))) (a b : List (BitVec 16))
    (stk : List (Cell (BitVec 16))) (hr : r.length = 511) (ha : a.length = 256) (hb : b.length = 256) (hs : stk.length = 1896) :
    ∃ s r' stk', polymulF conc (polymulStart g r a b stk) = some s ∧ s.mem = [halves r', halves a, halves b, stk'] ∧
      EqMod 8192 (fun k => ((r'.getD k.val 0).toNat : Int) - ((r'.getD (k.val + 256) 0).toNat : Int)) (negMul (toP a) (toP b)) := by
  obtain ⟨s, r', stk', h1, h2, h3, h4, -⟩ := C78_polymul g hg r a b stk hr ha hb hs
  refine ⟨s, r', stk', h1, h2, fun k => ?_⟩
  have hk := k.isLt
  rw [negMul_wideMul]
  have e1 := h4 k.val (by omega)
  have e2 : ((r'.getD (k.val + 256) 0).toNat : Int) % 8192 = wideMul (toP a) (toP b) (k.val + 256) % 8192 := by
    by_cases h : k.val + 256 < 511
    · exact h4 _ h
    · have : wideMul (toP a) (toP b) (k.val + 256) = 0 := by
        unfold wideMul
        refine Finset.sum_eq_zero fun i _ => Finset.sum_eq_zero fun j _ => ?_
        have := i.isLt
        have := j.isLt
        rw [if_neg (by omega)]
      rw [this, List.getD_eq_getElem?_getD, List.getElem?_eq_none (by omega)]
      rfl
  simp only
  omega

/-- C78: a run on concrete arrays: `X^255 * (1 + 2X + … + 256X^255)` has the coefficients 256 at `X^510` and 0 at `X^254`. -/
example : ∃ s r' stk', polymulF conc (polymulStart (fun _ => .w (12345 : BitVec 32)) (List.replicate 511 .undef) (List.replicate 255 0 ++ [1])
    ((List.range 256).map fun i => BitVec.ofNat 16 (i + 1)) (List.replicate 1896 .undef)) = some s ∧
    s.mem = [halves r', halves (List.replicate 255 0 ++ [1]), halves ((List.range 256).map fun i => BitVec.ofNat 16 (i + 1)), stk'] ∧
    ((r'.getD 510 0).toNat : Int) % 8192 = 256 ∧ ((r'.getD 254 0).toNat : Int) % 8192 = 0 := by
  obtain ⟨s, r', stk', h1, h2, -, h3, -⟩ := C78_polymul (fun _ => .w (12345 : BitVec 32)) (by simp) (List.replicate 511 .undef)
    (List.replicate 255 0 ++ [1]) ((List.range 256).map fun i => BitVec.ofNat 16 (i + 1)) (List.replicate 1896 .undef) List.length_replicate
    (by rw [List.length_append, List.length_replicate]; rfl) (by rw [List.length_map, List.length_range]) List.length_replicate
  refine ⟨s, r', stk', h1, h2, (h3 510 (by decide)).trans ?_, (h3 254 (by decide)).trans ?_⟩
  all_goals
    have key (n c : Nat) (hc : c ≤ 255 ∧ n = 255 + c ∨ n < 255 ∧ c = 256) :
      wideMul (toP (List.replicate 255 0 ++ [1])) (toP ((List.range 256).map fun i => BitVec.ofNat 16 (i + 1))) n = if c = 256 then 0 else c + 1 := by
      unfold wideMul
      have ha (i : Fin 256) : toP (List.replicate 255 0 ++ [1]) i = if i = 255 then 1 else 0 := by revert i; decide +kernel
      have hb (j : Fin 256) : toP ((List.range 256).map fun i => BitVec.ofNat 16 (i + 1)) j = j.val + 1 := by revert j; decide +kernel
      rw [Finset.sum_eq_single (255 : Fin 256)]
      · simp only [ha, hb, if_true]
        rcases hc with ⟨h1, rfl⟩ | ⟨h1, rfl⟩
        · rw [Finset.sum_eq_single (⟨c, by omega⟩ : Fin 256)]
          · rw [if_pos (show (255 : Fin 256).val + c = 255 + c from rfl), if_neg (by omega), one_mul]; simp
          · intro j _ hj
            rw [if_neg fun e => hj (Fin.ext (by have : (255 : Fin 256).val = 255 := rfl; simp only; omega))]
          · intro h; exact absurd (Finset.mem_univ _) h
        · rw [if_pos rfl]
          refine Finset.sum_eq_zero fun j _ => ?_
          rw [if_neg (by have : (255 : Fin 256).val = 255 := rfl; omega)]
      · intro i _ hi
        refine Finset.sum_eq_zero fun j _ => ?_
        rw [ha, if_neg hi, zero_mul, ite_self]
      · intro h; exact absurd (Finset.mem_univ _) h
  · rw [key 510 255 (by omega)]; rfl
  · rw [key 254 256 (by omega)]; rfl

end Saber.Props
