import Verif.Proof.Law
import Verif.Spec.Failure
/-!
# Bounds for the failure probability
-/
namespace Saber.Law
open Spec Saber.Props Saber.Prob

/-- The values of a family of bit patterns. -/
def vals (mu : Nat) {l : Nat} (w : Fin l → Fin 256 → Fin (2 ^ mu)) : PVec l := fun j i => patternValue mu (w j i).val

theorem secretFrom_eq (P : Params) (h : P.mu % 2 = 0) (b : Bytes P.secretBytes) : secretFrom P (List.ofFn b) = vals P.mu (vecEquiv P.l P.mu b) := by
  funext i n
  show centredBinomial P.mu ((List.ofFn b).drop (i.val * P.mu * 32)) n = _
  rw [centredBinomial_pattern _ h, show i.val * P.mu * 32 = 32 * P.mu * i.val by ring]
  rfl

theorem negMul_eq (a b : Poly) (k : Fin 256) : negMul a b k = ∑ i : Fin 256, (if k - i ≤ k then 1 else -1) * a (k - i) * b i := by
  unfold negMul
  rw [← Equiv.sum_comp (Equiv.subLeft k)]
  refine Finset.sum_congr rfl fun i _ => ?_
  simp only [Equiv.subLeft_apply, sub_sub_cancel]
  ring

/-- `2 + x^c + x^(-c)` -/
def bump (x : ℚ) (c : Int) : ℚ := 2 + x ^ c + x ^ (-c)

theorem bump_neg (x : ℚ) (c : Int) : bump x (-c) = bump x c := by unfold bump; rw [neg_neg]; ring

/-- The generating function of one coefficient of an inner product with a random secret. -/
theorem mgf_inner (P : PSet) {l : Nat} (x : ℚ) (hx : 0 < x) (e : PVec l) (k : Fin 256) :
    ∑ w : Fin l → Fin 256 → Fin (2 ^ muOf P), x ^ (innerProd e (vals (muOf P) w) k) = ∏ j, ∏ i, bump x (e j i) ^ (muOf P / 2) := by
  have e1 : ∀ w : Fin l → Fin 256 → Fin (2 ^ muOf P), innerProd e (vals (muOf P) w) k
      = ∑ j, ∑ i, (if k - i ≤ k then 1 else -1) * e j (k - i) * patternValue (muOf P) (w j i).val := by
    intro w
    unfold innerProd
    exact Finset.sum_congr rfl fun j _ => negMul_eq _ _ _
  simp only [e1]
  rw [mgf2 (κ := Fin (2 ^ muOf P)) x hx.ne' fun j i b => (if k - i ≤ k then 1 else -1) * e j (k - i) * patternValue (muOf P) b.val]
  refine Finset.prod_congr rfl fun j _ => ?_
  rw [← Equiv.prod_comp (Equiv.subLeft k) fun i => bump x (e j i) ^ (muOf P / 2)]
  refine Finset.prod_congr rfl fun i _ => ?_
  rw [mgf_pattern P x hx]
  simp only [Equiv.subLeft_apply]
  congr 1
  split
  · rw [one_mul]; rfl
  · rw [neg_one_mul]; exact bump_neg x _

theorem innerProd_neg_left {l : Nat} (e s : PVec l) (k : Fin 256) : innerProd (fun j i => -e j i) s k = -innerProd e s k := by
  unfold innerProd negMul
  rw [← Finset.sum_neg_distrib]
  refine Finset.sum_congr rfl fun j _ => ?_
  rw [← Finset.sum_neg_distrib]
  refine Finset.sum_congr rfl fun i _ => ?_
  ring

/-- Number of secrets for which a coefficient of the inner product with a vector of entries in `[-4, 4]` reaches `H`. -/
theorem tail_inner (P : PSet) {l : Nat} (x : ℚ) (hx : 1 ≤ x) (e : PVec l) (he : ∀ j i, |e j i| ≤ 4) (k : Fin 256) (H : Nat) :
    (count (fun w : Fin l → Fin 256 → Fin (2 ^ muOf P) => (H : Int) ≤ innerProd e (vals (muOf P) w) k) : ℚ)
      ≤ bump x 4 ^ (muOf P / 2 * 256 * l) * (x ^ H)⁻¹ := by
  have h0 : 0 < x := by linarith
  have h := markov (fun w : Fin l → Fin 256 → Fin (2 ^ muOf P) => innerProd e (vals (muOf P) w) k) x hx H
  rw [mgf_inner P x h0, zpow_natCast] at h
  have b : ∀ j i, bump x (e j i) ^ (muOf P / 2) ≤ bump x 4 ^ (muOf P / 2) := by
    intro j i
    have := cosh_mono x hx (e j i) 4 (he j i)
    apply pow_le_pow_left₀
    · unfold bump; positivity
    · unfold bump; linarith
  have b2 : ∏ j, ∏ i, bump x (e j i) ^ (muOf P / 2) ≤ bump x 4 ^ (muOf P / 2 * 256 * l) := by
    refine le_trans (Finset.prod_le_prod (g := fun _ => bump x 4 ^ (muOf P / 2 * 256)) (fun j _ => ?_) fun j _ => ?_) ?_
    · apply Finset.prod_nonneg; intro i _; unfold bump; positivity
    · refine le_trans (Finset.prod_le_prod (g := fun _ => bump x 4 ^ (muOf P / 2)) (fun i _ => ?_) fun i _ => b j i) ?_
      · unfold bump; positivity
      · rw [Finset.prod_const, Finset.card_univ, Fintype.card_fin, ← pow_mul]
    · rw [Finset.prod_const, Finset.card_univ, Fintype.card_fin, ← pow_mul]
  have hp : 0 < x ^ H := by positivity
  rw [← div_eq_mul_inv, le_div_iff₀ hp]
  exact le_trans h b2

theorem tail_inner_abs (P : PSet) {l : Nat} (x : ℚ) (hx : 1 ≤ x) (e : PVec l) (he : ∀ j i, |e j i| ≤ 4) (k : Fin 256) (H : Nat) :
    (count (fun w : Fin l → Fin 256 → Fin (2 ^ muOf P) => (H : Int) ≤ |innerProd e (vals (muOf P) w) k|) : ℚ)
      ≤ 2 * (bump x 4 ^ (muOf P / 2 * 256 * l) * (x ^ H)⁻¹) := by
  have h1 := tail_inner P x hx e he k H
  have h2 := tail_inner P x hx (fun j i => -e j i) (fun j i => by rw [abs_neg]; exact he j i) k H
  have h3 : count (fun w : Fin l → Fin 256 → Fin (2 ^ muOf P) => (H : Int) ≤ |innerProd e (vals (muOf P) w) k|)
      ≤ count (fun w : Fin l → Fin 256 → Fin (2 ^ muOf P) => (H : Int) ≤ innerProd e (vals (muOf P) w) k)
        + count (fun w : Fin l → Fin 256 → Fin (2 ^ muOf P) => (H : Int) ≤ innerProd (fun j i => -e j i) (vals (muOf P) w) k) := by
    refine le_trans (count_mono fun w hw => ?_) (count_or _ _)
    rw [innerProd_neg_left]
    exact le_abs.1 hw
  have h4 : (count (fun w : Fin l → Fin 256 → Fin (2 ^ muOf P) => (H : Int) ≤ |innerProd e (vals (muOf P) w) k|) : ℚ) ≤ _ := Nat.cast_le.2 h3
  push_cast at h4
  linarith

theorem roundErr_abs (x : Poly) (k : Fin 256) : |roundErr x k| ≤ 4 := by
  unfold roundErr
  rw [abs_le]
  omega

/-- If both inner products are small, the noise is in range. -/
theorem noise_small {l : Nat} (eT : Nat) (he : eT = 3 ∨ eT = 4 ∨ eT = 6) (A : PMat l) (s s' : PVec l) (k : Fin 256) (H : Nat)
    (hH : 2 * H + 8 * 2 ^ (9 - eT) ≤ 2050)
    (h1 : |innerProd (fun i => roundErr (matVec A s' i)) s k| < H)
    (h2 : |innerProd (fun i => roundErr (matVec (transpose A) s i)) s' k| < H) : NoiseOk (noise eT A s s') k := by
  rw [abs_lt] at h1 h2
  unfold NoiseOk noise cutErr
  generalize innerProd (fun i => roundErr (matVec A s' i)) s k = a at *
  generalize innerProd (fun i => roundErr (matVec (transpose A) s i)) s' k = b at *
  generalize innerProd (fun i => roundP (matVec (transpose A) s i)) s' k = c at *
  rcases he with rfl | rfl | rfl <;> norm_num at hH ⊢ <;> omega

/-- Number of pairs of secrets for which the exchange fails, for a fixed matrix. -/
theorem count_fails (P : PSet) (eT : Nat) (he : eT = 3 ∨ eT = 4 ∨ eT = 6) {l : Nat} (A : PMat l) (x : ℚ) (hx : 1 ≤ x) (H : Nat)
    (hH : 2 * H + 8 * 2 ^ (9 - eT) ≤ 2050) :
    (count (fun d : (Fin l → Fin 256 → Fin (2 ^ muOf P)) × (Fin l → Fin 256 → Fin (2 ^ muOf P)) =>
      ∃ k, ¬ NoiseOk (noise eT A (vals (muOf P) d.1) (vals (muOf P) d.2)) k) : ℚ)
      ≤ 1024 * (Fintype.card (Fin l → Fin 256 → Fin (2 ^ muOf P)) : ℚ) * (bump x 4 ^ (muOf P / 2 * 256 * l) * (x ^ H)⁻¹) := by
  have h1 : count (fun d : (Fin l → Fin 256 → Fin (2 ^ muOf P)) × (Fin l → Fin 256 → Fin (2 ^ muOf P)) =>
      ∃ k, ¬ NoiseOk (noise eT A (vals (muOf P) d.1) (vals (muOf P) d.2)) k)
      ≤ ∑ k : Fin 256, (count (fun d : (Fin l → Fin 256 → Fin (2 ^ muOf P)) × (Fin l → Fin 256 → Fin (2 ^ muOf P)) =>
          (H : Int) ≤ |innerProd (fun i => roundErr (matVec A (vals (muOf P) d.2) i)) (vals (muOf P) d.1) k|)
        + count (fun d : (Fin l → Fin 256 → Fin (2 ^ muOf P)) × (Fin l → Fin 256 → Fin (2 ^ muOf P)) =>
          (H : Int) ≤ |innerProd (fun i => roundErr (matVec (transpose A) (vals (muOf P) d.1) i)) (vals (muOf P) d.2) k|)) := by
    refine le_trans (count_exists _) (Finset.sum_le_sum fun k _ => ?_)
    refine le_trans (count_mono fun d hd => ?_) (count_or _ _)
    by_contra hc
    rw [not_or, not_le, not_le] at hc
    exact hd (noise_small eT he A _ _ k H hH hc.1 hc.2)
  have h2 : ∀ k, (count (fun d : (Fin l → Fin 256 → Fin (2 ^ muOf P)) × (Fin l → Fin 256 → Fin (2 ^ muOf P)) =>
          (H : Int) ≤ |innerProd (fun i => roundErr (matVec A (vals (muOf P) d.2) i)) (vals (muOf P) d.1) k|) : ℚ)
      ≤ (Fintype.card (Fin l → Fin 256 → Fin (2 ^ muOf P)) : ℚ) * (2 * (bump x 4 ^ (muOf P / 2 * 256 * l) * (x ^ H)⁻¹)) := by
    intro k
    rw [count_prod_right]
    push_cast
    refine le_trans (Finset.sum_le_sum fun w' _ => tail_inner_abs P x hx (fun i => roundErr (matVec A (vals (muOf P) w') i))
      (fun j i => roundErr_abs _ _) k H) ?_
    rw [Finset.sum_const, nsmul_eq_mul, Finset.card_univ]
  have h3 : ∀ k, (count (fun d : (Fin l → Fin 256 → Fin (2 ^ muOf P)) × (Fin l → Fin 256 → Fin (2 ^ muOf P)) =>
          (H : Int) ≤ |innerProd (fun i => roundErr (matVec (transpose A) (vals (muOf P) d.1) i)) (vals (muOf P) d.2) k|) : ℚ)
      ≤ (Fintype.card (Fin l → Fin 256 → Fin (2 ^ muOf P)) : ℚ) * (2 * (bump x 4 ^ (muOf P / 2 * 256 * l) * (x ^ H)⁻¹)) := by
    intro k
    rw [count_prod]
    push_cast
    refine le_trans (Finset.sum_le_sum fun w _ => tail_inner_abs P x hx (fun i => roundErr (matVec (transpose A) (vals (muOf P) w) i))
      (fun j i => roundErr_abs _ _) k H) ?_
    rw [Finset.sum_const, nsmul_eq_mul, Finset.card_univ]
  refine le_trans (Nat.cast_le.2 h1) ?_
  push_cast
  refine le_trans (Finset.sum_le_sum fun k _ => add_le_add (h2 k) (h3 k)) ?_
  rw [Finset.sum_const, nsmul_eq_mul, Finset.card_univ, Fintype.card_fin]
  push_cast
  apply le_of_eq
  ring

end Saber.Law
