import Verif.Spec.Ring
import Verif.Spec.Arrays
import Mathlib.RingTheory.AdjoinRoot
import Mathlib.Data.ZMod.Basic
import Mathlib.Tactic.Ring
/-!
# `negMul` is the multiplication of `Z[X]/(X^256 + 1)`
-/
namespace Saber
open Spec Polynomial

/-- Value of a polynomial at an element of a commutative ring. -/
def polyAt {R : Type} [CommRing R] (x : R) (p : Poly) : R := ∑ i : Fin 256, (p i : R) * x ^ i.val

theorem polyAt_negMul {R : Type} [CommRing R] (x : R) (hx : x ^ 256 = -1) (a b : Poly) :
    polyAt x (negMul a b) = polyAt x a * polyAt x b := by
  unfold polyAt negMul
  simp only [Int.cast_sum, Finset.sum_mul]
  rw [Finset.sum_comm]
  refine Finset.sum_congr rfl fun i _ => ?_
  rw [Finset.mul_sum]
  refine (Fintype.sum_equiv (Equiv.addLeft i) _ _ fun j => ?_).symm
  show _ = ((((if i ≤ i + j then 1 else -1) * (a i * b (i + j - i)) : Int)) : R) * x ^ (i + j).val
  rw [add_sub_cancel_left]
  have hv : (i + j).val = (i.val + j.val) % 256 := Fin.val_add i j
  have hi := i.isLt
  have hj := j.isLt
  by_cases h : i.val + j.val < 256
  · have hle : i ≤ i + j := by rw [Fin.le_def, hv, Nat.mod_eq_of_lt h]; omega
    rw [if_pos hle, hv, Nat.mod_eq_of_lt h, pow_add]
    push_cast; ring
  · have hm : (i.val + j.val) % 256 = i.val + j.val - 256 := by omega
    have hle : ¬ i ≤ i + j := by rw [Fin.le_def, hv, hm]; omega
    have hp : x ^ i.val * x ^ j.val = - x ^ (i.val + j.val - 256) := by
      rw [← pow_add]
      conv_lhs => rw [show i.val + j.val = 256 + (i.val + j.val - 256) by omega, pow_add, hx]
      ring
    rw [if_neg hle, hv, hm]
    push_cast
    linear_combination (a i : R) * (b j : R) * hp

/-- `R_q = Z_q[X]/(X^256 + 1)` with `q = 2^13`. -/
abbrev Rq : Type := AdjoinRoot (X ^ 256 + 1 : (ZMod 8192)[X])

/-- The element of `R_q` with the given coefficients. -/
noncomputable def toRq (p : Poly) : Rq := polyAt (AdjoinRoot.root _) p

theorem root_pow : (AdjoinRoot.root (X ^ 256 + 1 : (ZMod 8192)[X])) ^ 256 = -1 := by
  have := AdjoinRoot.eval₂_root (X ^ 256 + 1 : (ZMod 8192)[X])
  simp only [eval₂_add, eval₂_pow, eval₂_X, eval₂_one] at this
  exact eq_neg_of_add_eq_zero_left this

theorem toRq_negMul (a b : Poly) : toRq (negMul a b) = toRq a * toRq b := polyAt_negMul _ root_pow a b

theorem cast_rq_eq {x y : Int} (h : x % 8192 = y % 8192) : (x : Rq) = (y : Rq) := by
  have h' : (x : ZMod 8192) = (y : ZMod 8192) := (ZMod.intCast_eq_intCast_iff' _ _ 8192).2 h
  have := congrArg (AdjoinRoot.of (X ^ 256 + 1 : (ZMod 8192)[X])) h'
  rwa [map_intCast, map_intCast] at this

theorem toRq_congr {a b : Poly} (h : EqMod 8192 a b) : toRq a = toRq b := by
  unfold toRq polyAt
  exact Finset.sum_congr rfl fun i _ => by rw [cast_rq_eq (h i)]

theorem toRq_add (a b : Poly) : toRq (fun k => a k + b k) = toRq a + toRq b := by
  unfold toRq polyAt
  rw [← Finset.sum_add_distrib]
  exact Finset.sum_congr rfl fun i _ => by push_cast; ring

theorem toRq_sum {L : Nat} (f : Fin L → Poly) : toRq (fun k => ∑ j, f j k) = ∑ j, toRq (f j) := by
  unfold toRq polyAt
  rw [Finset.sum_comm]
  refine Finset.sum_congr rfl fun i _ => ?_
  push_cast
  rw [Finset.sum_mul]

theorem eq_zero_of_dvd {R : Type} [CommRing R] [Nontrivial R] {n : Nat} (hn : 0 < n) {p : R[X]} (hd : X ^ n + 1 ∣ p)
    (hp : p.degree < (n : WithBot Nat)) : p = 0 := by
  have hm := monic_X_pow_add_C (1 : R) (n := n) (by omega)
  have hdeg := degree_X_pow_add_C (n := n) (by omega) (1 : R)
  rw [C_1] at hm hdeg
  by_contra hne
  have := hm.not_dvd_of_degree_lt hne (by rw [hdeg]; exact hp)
  exact this hd

/-- Elements of `R_q` are equal only if all 256 coefficients are equal modulo `q`. -/
theorem toRq_inj {a b : Poly} (h : toRq a = toRq b) : EqMod 8192 a b := by
  have key : ∀ p : Poly, toRq p = AdjoinRoot.mk (X ^ 256 + 1 : (ZMod 8192)[X]) (∑ i : Fin 256, C (p i : ZMod 8192) * X ^ i.val) := by
    intro p
    unfold toRq polyAt
    simp
  rw [key, key, AdjoinRoot.mk_eq_mk] at h
  have : Fact (1 < 8192) := ⟨by omega⟩
  have hd : (∑ i : Fin 256, C (a i : ZMod 8192) * X ^ i.val) - (∑ i : Fin 256, C (b i : ZMod 8192) * X ^ i.val) = 0 := by
    refine eq_zero_of_dvd (n := 256) (by omega) h ?_
    rw [← Finset.sum_sub_distrib]
    refine lt_of_le_of_lt (degree_sum_le _ _) ?_
    rw [Finset.sup_lt_iff (by exact WithBot.bot_lt_coe 256)]
    intro i _
    rw [← sub_mul, ← C_sub]
    refine lt_of_le_of_lt (degree_C_mul_X_pow_le _ _) ?_
    exact_mod_cast i.isLt
  rw [sub_eq_zero] at hd
  intro k
  have hk := congrArg (fun p => p.coeff k.val) hd
  simp only [finsetSum_coeff, coeff_C_mul_X_pow] at hk
  have e : ∀ p : Poly, (∑ i : Fin 256, if k.val = i.val then (p i : ZMod 8192) else 0) = (p k : ZMod 8192) := by
    intro p
    rw [Finset.sum_eq_single k]
    · simp
    · intro i _ hik
      rw [if_neg]
      intro hki; exact hik (Fin.ext hki.symm)
    · intro h; exact absurd (Finset.mem_univ k) h
  rw [e, e] at hk
  exact (ZMod.intCast_eq_intCast_iff' _ _ 8192).1 hk

end Saber
