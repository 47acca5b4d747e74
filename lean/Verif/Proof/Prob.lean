import Verif.Spec.Fraction
import Mathlib.Algebra.BigOperators.Ring.Finset
import Mathlib.Algebra.Order.BigOperators.Ring.Finset
import Mathlib.Algebra.BigOperators.Field
import Mathlib.Algebra.Order.Field.Power
import Mathlib.Data.Fintype.BigOperators
import Mathlib.Tactic.Positivity
import Mathlib.Tactic.Ring
import Mathlib.Tactic.Linarith
/-!
# Counting bounds: the exponential Markov inequality on a finite set
-/
namespace Saber.Prob

open Spec (count)

theorem count_eq {Ω : Type} [Fintype Ω] (p : Ω → Prop) [DecidablePred p] : count p = (Finset.univ.filter p).card := by
  unfold count
  congr

theorem count_mono {Ω : Type} [Fintype Ω] {p q : Ω → Prop} (h : ∀ ω, p ω → q ω) : count p ≤ count q := by
  classical
  rw [count_eq, count_eq]
  exact Finset.card_le_card fun ω => by simpa using h ω

theorem count_le {Ω : Type} [Fintype Ω] (p : Ω → Prop) : count p ≤ Fintype.card Ω := by
  classical
  rw [count_eq]
  exact Finset.card_le_univ _

theorem count_or {Ω : Type} [Fintype Ω] (p q : Ω → Prop) : count (fun ω => p ω ∨ q ω) ≤ count p + count q := by
  classical
  rw [count_eq, count_eq, count_eq, Finset.filter_or]
  exact Finset.card_union_le _ _

theorem count_exists {Ω ι : Type} [Fintype Ω] [Fintype ι] (p : ι → Ω → Prop) : count (fun ω => ∃ i, p i ω) ≤ ∑ i, count (p i) := by
  classical
  have : (Finset.univ.filter fun ω => ∃ i, p i ω) = Finset.univ.biUnion fun i => Finset.univ.filter (p i) := by
    ext ω; simp
  simp only [count_eq]
  rw [this]
  exact Finset.card_biUnion_le

theorem count_prod {Ω Ω' : Type} [Fintype Ω] [Fintype Ω'] (p : Ω × Ω' → Prop) : count p = ∑ ω, count fun ω' => p (ω, ω') := by
  classical
  simp only [count_eq, Finset.card_filter]
  rw [Fintype.sum_prod_type]

theorem count_prod_right {Ω Ω' : Type} [Fintype Ω] [Fintype Ω'] (p : Ω × Ω' → Prop) : count p = ∑ ω', count fun ω => p (ω, ω') := by
  classical
  simp only [count_eq, Finset.card_filter]
  rw [Fintype.sum_prod_type_right]

theorem count_equiv {Ω Ω' : Type} [Fintype Ω] [Fintype Ω'] (e : Ω ≃ Ω') (p : Ω' → Prop) : count (fun ω => p (e ω)) = count p := by
  classical
  rw [count_eq, count_eq]
  exact Finset.card_equiv e fun ω => by simp

/-- The exponential Markov inequality. -/
theorem markov {Ω : Type} [Fintype Ω] (f : Ω → Int) (x : ℚ) (hx : 1 ≤ x) (H : Int) :
    (count (fun ω => H ≤ f ω) : ℚ) * x ^ H ≤ ∑ ω, x ^ f ω := by
  classical
  have h0 : 0 < x := by linarith
  rw [count_eq, ← nsmul_eq_mul, ← Finset.sum_const]
  refine le_trans (Finset.sum_le_sum (g := fun ω => x ^ f ω) fun ω hω => zpow_le_zpow_right₀ hx (by simpa using hω)) ?_
  exact Finset.sum_le_sum_of_subset_of_nonneg (Finset.filter_subset _ _) fun ω _ _ => by positivity

theorem zpow_sum {ι : Type} (s : Finset ι) (x : ℚ) (hx : x ≠ 0) (f : ι → Int) : x ^ (∑ i ∈ s, f i) = ∏ i ∈ s, x ^ f i := by
  classical
  induction s using Finset.induction with
  | empty => simp
  | insert a s ha ih => rw [Finset.sum_insert ha, Finset.prod_insert ha, zpow_add₀ hx, ih]

/-- The generating function of a sum of independent terms is the product of their generating functions. -/
theorem mgf {ι κ : Type} [Fintype ι] [DecidableEq ι] [Fintype κ] (x : ℚ) (hx : x ≠ 0) (f : ι → κ → Int) :
    ∑ w : ι → κ, x ^ (∑ i, f i (w i)) = ∏ i, ∑ b, x ^ f i b := by
  rw [Fintype.prod_sum]
  exact Finset.sum_congr rfl fun w _ => zpow_sum _ x hx _

/-- The same for families with two indices. -/
theorem mgf2 {ι ι' κ : Type} [Fintype ι] [DecidableEq ι] [Fintype ι'] [DecidableEq ι'] [Fintype κ] (x : ℚ) (hx : x ≠ 0)
    (f : ι → ι' → κ → Int) : ∑ w : ι → ι' → κ, x ^ (∑ i, ∑ j, f i j (w i j)) = ∏ i, ∏ j, ∑ b, x ^ f i j b := by
  rw [mgf (κ := ι' → κ) x hx fun i v => ∑ j, f i j (v j)]
  exact Finset.prod_congr rfl fun i _ => mgf x hx _

/-- `x^c + x^(-c)` grows with `|c|`. -/
theorem cosh_mono (x : ℚ) (hx : 1 ≤ x) (c d : Int) (h : |c| ≤ d) : x ^ c + x ^ (-c) ≤ x ^ d + x ^ (-d) := by
  have h0 : 0 < x := by linarith
  have key : ∀ a : Int, 0 ≤ a → a ≤ d → x ^ a + x ^ (-a) ≤ x ^ d + x ^ (-d) := by
    intro a ha had
    have e : x ^ d + x ^ (-d) - (x ^ a + x ^ (-a)) = (x ^ d - x ^ a) * (1 - x ^ (-d - a)) := by
      have e1 : x ^ d * x ^ (-d - a) = x ^ (-a) := by rw [← zpow_add₀ h0.ne']; congr 1; ring
      have e2 : x ^ a * x ^ (-d - a) = x ^ (-d) := by rw [← zpow_add₀ h0.ne']; congr 1; ring
      calc _ = x ^ d - x ^ a - (x ^ d * x ^ (-d - a) - x ^ a * x ^ (-d - a)) := by rw [e1, e2]; ring
        _ = _ := by ring
    have p1 : 0 ≤ x ^ d - x ^ a := sub_nonneg.2 (zpow_le_zpow_right₀ hx had)
    have p2 : 0 ≤ 1 - x ^ (-d - a) := sub_nonneg.2 (zpow_le_one_of_nonpos₀ hx (by omega))
    have := mul_nonneg p1 p2
    linarith
  rcases abs_cases c with ⟨h1, h2⟩ | ⟨h1, h2⟩
  · exact key c h2 (h1 ▸ h)
  · have := key (-c) (by omega) (h1 ▸ h)
    rw [neg_neg] at this
    linarith

end Saber.Prob
