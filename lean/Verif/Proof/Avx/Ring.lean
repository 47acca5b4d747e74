import Verif.Proof.Avx.Interp
import Verif.Proof.Ring
/-!
# The product of blocks is the product in the ring
-/
namespace Saber.Avx
open Spec

/-- The polynomial whose coefficients are the lanes of 16 vectors. -/
def vecP (a : List Vec) : Poly := fun i => ((el a (i.val / 16) (i.val % 16)).toNat : Int)

/-- The sign of a product of blocks in block `w` of the result. -/
def sgn (w s : Nat) : Int := if s = w then 1 else if s = w + 16 then -1 else 0

theorem resC_sgn (w n : Nat) : (resC w n : Int) ≡ sgn w (n / 16 % 16 + n % 16 + n / 256) [ZMOD 8192] := by
  unfold resC sgn
  by_cases h1 : n / 16 % 16 + n % 16 + n / 256 = w
  · rw [if_pos h1, Nat.beq_eq.mpr h1]
    rfl
  · have h1' : Nat.beq (n / 16 % 16 + n % 16 + n / 256) w = false := by
      cases h : Nat.beq (n / 16 % 16 + n % 16 + n / 256) w with
      | false => rfl
      | true => exact absurd (Nat.beq_eq.mp h) h1
    rw [if_neg h1, h1']
    by_cases h2 : n / 16 % 16 + n % 16 + n / 256 = w + 16
    · rw [if_pos h2, Nat.beq_eq.mpr h2]
      decide
    · have h2' : Nat.beq (n / 16 % 16 + n % 16 + n / 256) (w + 16) = false := by
        cases h : Nat.beq (n / 16 % 16 + n % 16 + n / 256) (w + 16) with
        | false => rfl
        | true => exact absurd (Nat.beq_eq.mp h) h2
      rw [if_neg h2, h2']
      rfl

theorem sum_blocks (f : Nat → Int) (m : Nat) : ∑ n ∈ Finset.range (16 * m), f n = ∑ u ∈ Finset.range m, ∑ v ∈ Finset.range 16, f (16 * u + v) := by
  induction m with
  | zero => rfl
  | succ m ih => rw [Finset.sum_range_succ, ← ih, Nat.mul_succ, Finset.sum_range_add]

theorem sum_256 (f : Nat → Int) : ∑ n ∈ Finset.range 256, f n = ∑ u ∈ Finset.range 16, ∑ v ∈ Finset.range 16, f (16 * u + v) := sum_blocks f 16

theorem sum_sgn {w t : Nat} (f : Nat → Int) (v0 : Nat) (hv : v0 < 16) (h : ∀ v < 16, v ≠ v0 → sgn w (t + v) = 0) :
    ∑ v ∈ Finset.range 16, sgn w (t + v) * f v = sgn w (t + v0) * f v0 := by
  refine Finset.sum_eq_single v0 (fun v hv' hne => ?_) fun h' => absurd (Finset.mem_range.mpr hv) h'
  rw [h v (Finset.mem_range.mp hv') hne, zero_mul]

/-- One coefficient of `a` times `b`. -/
theorem sum_coef {w t : Nat} (hw : w < 16) (ht : t ≤ 16) (f : Nat → Int) :
    ∑ v ∈ Finset.range 16, sgn w (t + v) * f v = if t ≤ w then f (w - t) else -f (w + 16 - t) := by
  by_cases h : t ≤ w
  · rw [if_pos h, sum_sgn f (w - t) (by omega) fun v hv hne => by rw [sgn, if_neg (by omega), if_neg (by omega)], sgn, if_pos (by omega), one_mul]
  · rw [if_neg h, sum_sgn f (w + 16 - t) (by omega) fun v hv hne => by rw [sgn, if_neg (by omega), if_neg (by omega)], sgn, if_neg (by omega),
      if_pos (by omega)]
    ring

theorem blocks_negMul (a b : List Vec) {w k : Nat} (hw : w < 16) (hk : k < 16) :
    ∑ n ∈ Finset.range 512, sgn w (n / 16 % 16 + n % 16 + n / 256) * interV (blk a b) k n =
      negMul (vecP a) (vecP b) ⟨16 * w + k, by omega⟩ := by
  rw [show 512 = 256 + 256 from rfl, Finset.sum_range_add, sum_256, sum_256, ← Finset.sum_add_distrib]
  have hN : negMul (vecP a) (vecP b) ⟨16 * w + k, by omega⟩ = ∑ u ∈ Finset.range 16, ∑ x ∈ Finset.range 16,
      (if 16 * u + x ≤ 16 * w + k then 1 else -1 : Int) * (lanev a x u * lanev b ((16 * w + k + 256 - (16 * u + x)) % 16)
        ((16 * w + k + 256 - (16 * u + x)) / 16 % 16)) := by
    unfold negMul
    rw [← sum_256 (fun n => (if n ≤ 16 * w + k then 1 else -1 : Int) * (lanev a (n % 16) (n / 16) *
      lanev b ((16 * w + k + 256 - n) % 16) ((16 * w + k + 256 - n) / 16 % 16))) |>.trans (Finset.sum_congr rfl fun u _ =>
        Finset.sum_congr rfl fun x hx => by
          have hx := Finset.mem_range.mp hx
          rw [show (16 * u + x) % 16 = x by omega, show (16 * u + x) / 16 = u by omega])]
    rw [Finset.sum_range]
    refine Finset.sum_congr rfl fun i _ => ?_
    have hi := i.isLt
    rw [vecP, vecP, lanev, lanev]
    have hs : (⟨16 * w + k, by omega⟩ - i : Fin 256).val = (16 * w + k + 256 - i.val) % 256 := by
      rw [Fin.sub_def]
      show (256 - i.val + (16 * w + k)) % 256 = _
      congr 1
      omega
    rw [hs, show (16 * w + k + 256 - i.val) % 256 / 16 = (16 * w + k + 256 - i.val) / 16 % 16 by omega,
      show (16 * w + k + 256 - i.val) % 256 % 16 = (16 * w + k + 256 - i.val) % 16 by omega]
    rfl
  rw [hN]
  refine Finset.sum_congr rfl fun u hu => ?_
  have hu := Finset.mem_range.mp hu
  have h1 : ∀ v ∈ Finset.range 16, sgn w ((16 * u + v) / 16 % 16 + (16 * u + v) % 16 + (16 * u + v) / 256) * interV (blk a b) k (16 * u + v) =
      ∑ x ∈ Finset.range 16, if x ≤ k then sgn w (u + v) * (lanev a x u * lanev b (k - x) v) else 0 := by
    intro v hv
    have hv := Finset.mem_range.mp hv
    rw [interV, if_pos (by omega), blk, show (16 * u + v) / 16 % 16 + (16 * u + v) % 16 + (16 * u + v) / 256 = u + v by omega, Finset.mul_sum]
    refine Finset.sum_congr rfl fun x hx => ?_
    have hx := Finset.mem_range.mp hx
    rw [show (16 * u + v) / 16 = u by omega, show (16 * u + v) % 16 = v by omega]
    by_cases h : x ≤ k
    · rw [if_pos h, if_pos ⟨h, by omega⟩]
    · rw [if_neg h, if_neg (fun h' => h h'.1), mul_zero]
  have h2 : ∀ v ∈ Finset.range 16, sgn w ((256 + (16 * u + v)) / 16 % 16 + (256 + (16 * u + v)) % 16 + (256 + (16 * u + v)) / 256) *
      interV (blk a b) k (256 + (16 * u + v)) =
      ∑ x ∈ Finset.range 16, if x ≤ k then 0 else sgn w (u + 1 + v) * (lanev a x u * lanev b (16 + k - x) v) := by
    intro v hv
    have hv := Finset.mem_range.mp hv
    rw [interV, if_neg (by omega), blk, show (256 + (16 * u + v)) / 16 % 16 + (256 + (16 * u + v)) % 16 + (256 + (16 * u + v)) / 256 =
      u + 1 + v by omega, Finset.mul_sum]
    refine Finset.sum_congr rfl fun x hx => ?_
    have hx := Finset.mem_range.mp hx
    rw [show (256 + (16 * u + v) - 256) / 16 = u by omega, show (256 + (16 * u + v) - 256) % 16 = v by omega]
    by_cases h : x ≤ k
    · rw [if_pos h, if_neg (by omega), mul_zero]
    · rw [if_neg h, if_pos (by omega)]
  rw [Finset.sum_congr rfl h1, Finset.sum_congr rfl h2, Finset.sum_comm, Finset.sum_comm (γ := Nat) (s := Finset.range 16) (t := Finset.range 16)
    (f := fun v x => if x ≤ k then 0 else sgn w (u + 1 + v) * (lanev a x u * lanev b (16 + k - x) v)), ← Finset.sum_add_distrib]
  refine Finset.sum_congr rfl fun x hx => ?_
  have hx := Finset.mem_range.mp hx
  by_cases h : x ≤ k
  · simp only [h, if_true, Finset.sum_const_zero, add_zero]
    rw [sum_coef hw (by omega) (fun v => lanev a x u * lanev b (k - x) v)]
    by_cases hu' : u ≤ w
    · rw [if_pos hu', if_pos (by omega), show (16 * w + k + 256 - (16 * u + x)) % 16 = k - x by omega,
        show (16 * w + k + 256 - (16 * u + x)) / 16 % 16 = w - u by omega, one_mul]
    · rw [if_neg hu', if_neg (by omega), show (16 * w + k + 256 - (16 * u + x)) % 16 = k - x by omega,
        show (16 * w + k + 256 - (16 * u + x)) / 16 % 16 = w + 16 - u by omega]
      ring
  · simp only [h, if_false, Finset.sum_const_zero, zero_add]
    rw [sum_coef hw (by omega) (fun v => lanev a x u * lanev b (16 + k - x) v)]
    by_cases hu' : u + 1 ≤ w
    · rw [if_pos hu', if_pos (by omega), show (16 * w + k + 256 - (16 * u + x)) % 16 = 16 + k - x by omega,
        show (16 * w + k + 256 - (16 * u + x)) / 16 % 16 = w - (u + 1) by omega, one_mul]
    · rw [if_neg hu', if_neg (by omega), show (16 * w + k + 256 - (16 * u + x)) % 16 = 16 + k - x by omega,
        show (16 * w + k + 256 - (16 * u + x)) / 16 % 16 = w + 16 - (u + 1) by omega]
      ring

end Saber.Avx
