import Verif.Model.PolyMul
import Mathlib.Data.BitVec
import Mathlib.Algebra.Polynomial.Coeff
import Mathlib.Algebra.Polynomial.Basic
import Mathlib.Algebra.Polynomial.Eval.Coeff
import Mathlib.Tactic.Ring
import Mathlib.Tactic.LinearCombination
/-!
# Arrays of `uint16_t` as polynomials over `Z/2^16`
-/
namespace Saber
open Polynomial

/-- `Z/2^16` -/
abbrev R16 := BitVec 16

/-- `a[off] + a[off+1] X + ... + a[off+n-1] X^(n-1)` -/
noncomputable def S (a : List R16) (off n : Nat) : R16[X] :=
  ∑ i ∈ Finset.range n, C (a.getD (off + i) 0) * X ^ i

theorem S_zero (a : List R16) (off : Nat) : S a off 0 = 0 := by simp [S]

theorem S_succ (a : List R16) (off n : Nat) : S a off (n + 1) = S a off n + C (a.getD (off + n) 0) * X ^ n := by
  simp [S, Finset.sum_range_succ]

theorem S_add (a : List R16) (off m n : Nat) : S a off (m + n) = S a off m + X ^ m * S a (off + m) n := by
  induction n with
  | zero => simp [S_zero]
  | succ n ih =>
    rw [← Nat.add_assoc, S_succ, ih, S_succ, Nat.add_assoc]
    ring

theorem S_coeff (a : List R16) (off n k : Nat) :
    (S a off n).coeff k = if k < n then a.getD (off + k) 0 else 0 := by
  induction n with
  | zero => simp [S_zero]
  | succ n ih =>
    rw [S_succ, coeff_add, ih, coeff_C_mul_X_pow]
    by_cases h : k = n
    · subst h; simp
    · by_cases h2 : k < n
      · have : k < n + 1 := by omega
        simp [h, h2, this]
      · have : ¬ k < n + 1 := by omega
        simp [h, h2, this]

section
variable {R : Type} [CommRing R]

/-- All coefficients from index `n` on vanish. -/
def Deg (p : R[X]) (n : Nat) : Prop := ∀ k, n ≤ k → p.coeff k = 0

theorem Deg.add {p q : R[X]} {n : Nat} (hp : Deg p n) (hq : Deg q n) : Deg (p + q) n := by
  intro k hk; rw [coeff_add, hp k hk, hq k hk, add_zero]

theorem Deg.sub {p q : R[X]} {n : Nat} (hp : Deg p n) (hq : Deg q n) : Deg (p - q) n := by
  intro k hk; rw [coeff_sub, hp k hk, hq k hk, sub_zero]

theorem Deg.mono {p : R[X]} {m n : Nat} (hp : Deg p m) (h : m ≤ n) : Deg p n := fun k hk => hp k (by omega)

theorem Deg.mul {p q : R[X]} {m n : Nat} (hp : Deg p m) (hq : Deg q n) : Deg (p * q) (m + n - 1) := by
  intro k hk
  rw [coeff_mul]
  apply Finset.sum_eq_zero
  rintro ⟨i, j⟩ hij
  rw [Finset.mem_antidiagonal] at hij
  simp only at hij ⊢
  by_cases h : m ≤ i
  · rw [hp i h, zero_mul]
  · rw [hq j (by omega), mul_zero]

theorem Deg.xmul {p : R[X]} {n : Nat} (m : Nat) (hp : Deg p n) : Deg (X ^ m * p) (n + m) := by
  intro k hk
  rw [coeff_X_pow_mul']
  split
  · exact hp _ (by omega)
  · rfl

/-- Truncation of a polynomial to its first `n` coefficients. -/
noncomputable def trunc (p : R[X]) (n : Nat) : R[X] := ∑ i ∈ Finset.range n, C (p.coeff i) * X ^ i

theorem trunc_zero (p : R[X]) : trunc p 0 = 0 := by simp [trunc]

theorem trunc_succ (p : R[X]) (n : Nat) : trunc p (n + 1) = trunc p n + C (p.coeff n) * X ^ n := by
  simp [trunc, Finset.sum_range_succ]

theorem trunc_coeff (p : R[X]) (n k : Nat) : (trunc p n).coeff k = if k < n then p.coeff k else 0 := by
  induction n with
  | zero => simp [trunc_zero]
  | succ n ih =>
    rw [trunc_succ, coeff_add, ih, coeff_C_mul_X_pow]
    by_cases h : k = n
    · subst h; simp
    · by_cases h2 : k < n
      · have : k < n + 1 := by omega
        simp [h, h2, this]
      · have : ¬ k < n + 1 := by omega
        simp [h, h2, this]

theorem trunc_eq {p : R[X]} {n : Nat} (h : Deg p n) : trunc p n = p := by
  ext1 k
  rw [trunc_coeff]
  split
  · rfl
  · exact (h k (by omega)).symm

end

theorem Deg.S (a : List R16) (off n : Nat) : Deg (S a off n) n := by
  intro k hk
  rw [S_coeff]
  have : ¬ k < n := by omega
  simp [this]

/-- The array has `len` elements, which are the first coefficients of `p`. -/
def Arr (a : List R16) (len : Nat) (p : R16[X]) : Prop :=
  a.length = len ∧ ∀ k, k < len → a.getD k 0 = p.coeff k

theorem Arr.zero (len : Nat) : Arr (List.replicate len 0) len 0 := by
  refine ⟨by simp, fun k hk => ?_⟩
  simp [hk]

theorem Arr.congr {a : List R16} {len : Nat} {p q : R16[X]} (h : Arr a len p) (e : p = q) : Arr a len q := e ▸ h

/-- `a[idx] += v` adds `v X^idx`. -/
theorem Arr.addTo {a : List R16} {len : Nat} {p : R16[X]} (h : Arr a len p) {idx : Nat} (hi : idx < len) (v : R16) :
    Ok (addTo a idx v) fun a' => Arr a' len (p + C v * X ^ idx) := by
  refine ⟨_, addTo_ok (by rw [h.1]; exact hi), by simp [h.1], fun k hk => ?_⟩
  rw [getD_set, coeff_add, coeff_C_mul_X_pow, h.2 idx hi]
  by_cases e : k = idx
  · subst e; simp [h.1, hk]
  · have e' : ¬ (idx = k ∧ idx < a.length) := by omega
    rw [if_neg e', if_neg e, h.2 k hk, add_zero]

theorem Arr.rd {a : List R16} {len : Nat} {p : R16[X]} (h : Arr a len p) {idx : Nat} (hi : idx < len) :
    rd a idx = .ok (p.coeff idx) := by
  rw [rd_ok 0 (by rw [h.1]; exact hi), h.2 idx hi]

/-- A complete array is the polynomial it stores. -/
theorem Arr.eq_S {a : List R16} {len : Nat} {p : R16[X]} (h : Arr a len p) (hd : Deg p len) : S a 0 len = p := by
  ext1 k
  rw [S_coeff, Nat.zero_add]
  split
  · exact h.2 k ‹_›
  · exact (hd k (by omega)).symm

end Saber
