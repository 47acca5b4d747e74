import Verif.Proof.FailureBound
/-!
# The failure probability of the idealised exchange
-/
namespace Saber.Law
open Spec Saber.Props Saber.Prob

/-- A sharpened exponential Markov inequality: `x^u (1 - B + B y^u)^2` is nonnegative, and at least 1 for `u ≥ 0`. -/
theorem markov3 {Ω : Type} [Fintype Ω] (f : Ω → Int) (x y B : ℚ) (hx : 1 ≤ x) (hy : 1 ≤ y) (hB : 1 ≤ B) (H : Int) :
    (count (fun ω => H ≤ f ω) : ℚ) ≤ (1 - B) ^ 2 * (x ^ (-H) * ∑ ω, x ^ f ω) + 2 * B * (1 - B) * ((x * y) ^ (-H) * ∑ ω, (x * y) ^ f ω)
      + B ^ 2 * ((x * y ^ 2) ^ (-H) * ∑ ω, (x * y ^ 2) ^ f ω) := by
  classical
  have x0 : 0 < x := by linarith
  have y0 : 0 < y := by linarith
  have e : ∀ u : Int, (1 - B) ^ 2 * x ^ u + 2 * B * (1 - B) * (x * y) ^ u + B ^ 2 * (x * y ^ 2) ^ u = x ^ u * (1 - B + B * y ^ u) ^ 2 := by
    intro u
    rw [mul_zpow, mul_zpow, ← zpow_natCast y 2, ← zpow_mul, mul_comm ((2 : Nat) : Int) u, zpow_mul, zpow_natCast]
    ring
  have s : (1 - B) ^ 2 * (x ^ (-H) * ∑ ω, x ^ f ω) + 2 * B * (1 - B) * ((x * y) ^ (-H) * ∑ ω, (x * y) ^ f ω)
      + B ^ 2 * ((x * y ^ 2) ^ (-H) * ∑ ω, (x * y ^ 2) ^ f ω) = ∑ ω, x ^ (f ω - H) * (1 - B + B * y ^ (f ω - H)) ^ 2 := by
    rw [Finset.mul_sum, Finset.mul_sum, Finset.mul_sum, Finset.mul_sum, Finset.mul_sum, Finset.mul_sum, ← Finset.sum_add_distrib,
      ← Finset.sum_add_distrib]
    refine Finset.sum_congr rfl fun ω _ => ?_
    rw [← e, sub_eq_neg_add (f ω) H, zpow_add₀ x0.ne', zpow_add₀ (by positivity), zpow_add₀ (by positivity)]
  rw [s, count_eq]
  calc ((Finset.univ.filter fun ω => H ≤ f ω).card : ℚ) = ∑ ω ∈ Finset.univ.filter fun ω => H ≤ f ω, (1 : ℚ) := by simp
    _ ≤ ∑ ω ∈ Finset.univ.filter fun ω => H ≤ f ω, x ^ (f ω - H) * (1 - B + B * y ^ (f ω - H)) ^ 2 := by
      refine Finset.sum_le_sum fun ω hω => ?_
      rw [Finset.mem_filter] at hω
      have h1 : 1 ≤ x ^ (f ω - H) := one_le_zpow₀ hx (by omega)
      have h2 : 1 ≤ y ^ (f ω - H) := one_le_zpow₀ hy (by omega)
      have h3 : 1 ≤ 1 - B + B * y ^ (f ω - H) := by nlinarith
      have h4 : 1 ≤ (1 - B + B * y ^ (f ω - H)) ^ 2 := one_le_pow₀ h3
      nlinarith
    _ ≤ _ := Finset.sum_le_sum_of_subset_of_nonneg (Finset.filter_subset _ _) fun ω _ _ => by positivity

/-- Summing a product over all families gives the product of the sums. -/
theorem sum_prod2 {ι ι' κ : Type} [Fintype ι] [DecidableEq ι] [Fintype ι'] [DecidableEq ι'] [Fintype κ] (g : κ → ℚ) :
    ∑ w : ι → ι' → κ, ∏ i, ∏ j, g (w i j) = ((∑ b, g b) ^ Fintype.card ι') ^ Fintype.card ι := by
  rw [← Fintype.prod_sum (fun (_ : ι) (v : ι' → κ) => ∏ j, g (v j))]
  rw [Finset.prod_const, Finset.card_univ]
  congr 1
  rw [← Fintype.prod_sum (fun (_ : ι') (b : κ) => g b), Finset.prod_const, Finset.card_univ]

/-- Sum of the generating functions over the eight possible rounding errors. -/
def bumps (m : Nat) (x : ℚ) : ℚ := ∑ v : Fin 8, bump x ((v.val : Int) - 3) ^ m

/-- The two families of rounding errors and secrets of one inner product. -/
theorem mgf_ideal_inner (P : PSet) (x : ℚ) (hx : 0 < x) (k : Fin 256) :
    ∑ e : Fin (params P).l → Fin 256 → Fin 8, ∑ w : Pat P, x ^ (innerProd (fun i n => ((e i n).val : Int) - 3) (vals (muOf P) w) k)
      = (bumps (muOf P / 2) x ^ 256) ^ (params P).l := by
  simp only [mgf_inner P x hx]
  rw [sum_prod2 (fun v : Fin 8 => bump x ((v.val : Int) - 3) ^ (muOf P / 2)), Fintype.card_fin, Fintype.card_fin]
  rfl

theorem bump_inv (x : ℚ) (c : Int) : bump x⁻¹ c = bump x c := by
  unfold bump
  rw [inv_zpow', inv_zpow', neg_neg]
  ring

theorem bumps_inv (m : Nat) (x : ℚ) : bumps m x⁻¹ = bumps m x := by
  unfold bumps
  simp only [bump_inv]

/-- The part of the noise that is cut off. -/
theorem mgf_cut (D : Nat) (x : ℚ) (hx : 0 < x) (k : Fin 256) (h : Int) :
    ∑ c : Fin 256 → Fin D, x ^ (8 * (((c k).val : Int) - h)) = (D : ℚ) ^ 255 * ∑ v : Fin D, x ^ (8 * ((v.val : Int) - h)) := by
  have e : ∀ c : Fin 256 → Fin D, 8 * (((c k).val : Int) - h) = ∑ i, if i = k then 8 * (((c i).val : Int) - h) else 0 := by
    intro c
    rw [Finset.sum_ite_eq' Finset.univ k fun i => 8 * (((c i).val : Int) - h), if_pos (Finset.mem_univ _)]
  simp only [e]
  rw [mgf x hx.ne' fun i (b : Fin D) => if i = k then 8 * ((b.val : Int) - h) else 0]
  rw [← Finset.mul_prod_erase Finset.univ _ (Finset.mem_univ k)]
  have e2 : ∀ i ∈ Finset.univ.erase k, (∑ b : Fin D, x ^ (if i = k then 8 * ((b.val : Int) - h) else 0)) = (D : ℚ) := by
    intro i hi
    simp only [if_neg (Finset.ne_of_mem_erase hi)]
    simp
  rw [Finset.prod_congr rfl e2, Finset.prod_const, Finset.card_erase_of_mem (Finset.mem_univ k), Finset.card_univ, Fintype.card_fin, mul_comm]
  simp

/-- A sum of products over independent parts. -/
theorem sum_draw {S S' E E' C : Type} [Fintype S] [Fintype S'] [Fintype E] [Fintype E'] [Fintype C] (F : E → S → ℚ) (F' : E' → S' → ℚ) (K : C → ℚ) :
    ∑ d : (S × S') × (E × E') × C, F d.2.1.1 d.1.1 * F' d.2.1.2 d.1.2 * K d.2.2 = (∑ e, ∑ s, F e s) * (∑ e, ∑ s, F' e s) * ∑ c, K c := by
  rw [← Fintype.sum_prod_type' F, ← Fintype.sum_prod_type' F', Fintype.sum_mul_sum, ← Fintype.sum_prod_type', Fintype.sum_mul_sum, ← Fintype.sum_prod_type']
  exact Equiv.sum_comp (⟨fun d => (((d.2.1.1, d.1.1), (d.2.1.2, d.1.2)), d.2.2), fun d => ((d.1.1.2, d.1.2.2), (d.1.1.1, d.1.2.1), d.2), fun _ => rfl, fun _ => rfl⟩ :
    (S × S') × (E × E') × C ≃ ((E × S) × (E' × S')) × C) fun d => F d.1.1.1 d.1.1.2 * F' d.1.2.1 d.1.2.2 * K d.2

/-- The draws of an idealised exchange with patterns instead of bytes. -/
abbrev PatDraw (P : PSet) :=
  (Pat P × Pat P) × ((Fin (params P).l → Fin 256 → Fin 8) × (Fin (params P).l → Fin 256 → Fin 8)) × (Fin 256 → Fin (2 ^ (10 - (params P).eT)))

/-- The noise of an idealised exchange with patterns instead of bytes. -/
def patNoise (P : PSet) (k : Fin 256) (d : PatDraw P) : Int :=
  innerProd (fun i n => ((d.2.1.1 i n).val : Int) - 3) (vals (muOf P) d.1.1) k
    - innerProd (fun i n => ((d.2.1.2 i n).val : Int) - 3) (vals (muOf P) d.1.2) k
    + 8 * (((d.2.2 k).val : Int) - 2 ^ (10 - (params P).eT - 1))

/-- The generating function of a coefficient of the noise. -/
theorem mgf_noise (P : PSet) (x : ℚ) (hx : 0 < x) (k : Fin 256) :
    ∑ d : PatDraw P, x ^ patNoise P k d = ((bumps (muOf P / 2) x ^ 256) ^ (params P).l) ^ 2
      * (((2 ^ (10 - (params P).eT) : Nat) : ℚ) ^ 255 * ∑ v : Fin (2 ^ (10 - (params P).eT)), x ^ (8 * ((v.val : Int) - 2 ^ (10 - (params P).eT - 1)))) := by
  have h1 := mgf_ideal_inner P x hx k
  have h2 := mgf_ideal_inner P x⁻¹ (by positivity) k
  rw [bumps_inv] at h2
  rw [← mgf_cut _ x hx k]
  conv_rhs => rw [sq]; lhs; lhs; rw [← h1]
  conv_rhs => lhs; rhs; rw [← h2]
  have e : ∀ d : PatDraw P, x ^ patNoise P k d
      = x ^ (innerProd (fun i n => ((d.2.1.1 i n).val : Int) - 3) (vals (muOf P) d.1.1) k)
        * x⁻¹ ^ (innerProd (fun i n => ((d.2.1.2 i n).val : Int) - 3) (vals (muOf P) d.1.2) k)
        * x ^ (8 * (((d.2.2 k).val : Int) - 2 ^ (10 - (params P).eT - 1))) := by
    intro d
    unfold patNoise
    rw [zpow_add₀ hx.ne', zpow_sub₀ hx.ne', inv_zpow]
    rfl
  rw [Finset.sum_congr rfl fun d _ => e d]
  exact sum_draw (fun (e : Fin (params P).l → Fin 256 → Fin 8) (w : Pat P) => x ^ (innerProd (fun i n => ((e i n).val : Int) - 3) (vals (muOf P) w) k))
    (fun (e : Fin (params P).l → Fin 256 → Fin 8) (w : Pat P) => x⁻¹ ^ (innerProd (fun i n => ((e i n).val : Int) - 3) (vals (muOf P) w) k))
    (fun c : Fin 256 → Fin (2 ^ (10 - (params P).eT)) => x ^ (8 * (((c k).val : Int) - 2 ^ (10 - (params P).eT - 1))))

/-- `1 + x^8 + x^16 + ...` with `D` terms -/
def powers (D : Nat) (x : ℚ) : ℚ := ∑ v : Fin D, x ^ (8 * v.val)

theorem cut_up (h : Nat) (x : ℚ) (hx : 0 < x) : ∑ v : Fin (2 * h), x ^ (8 * ((v.val : Int) - h)) = x ^ (-(8 * h : Int)) * powers (2 * h) x := by
  unfold powers
  rw [Finset.mul_sum]
  refine Finset.sum_congr rfl fun v _ => ?_
  rw [← zpow_natCast, ← zpow_add₀ hx.ne']
  congr 1
  push_cast
  ring

theorem cut_down (h : Nat) (x : ℚ) (hx : 0 < x) : ∑ v : Fin (2 * h), x⁻¹ ^ (8 * ((v.val : Int) - h)) = x ^ (8 - 8 * h : Int) * powers (2 * h) x := by
  unfold powers
  rw [← Equiv.sum_comp Fin.revPerm, Finset.mul_sum]
  refine Finset.sum_congr rfl fun v _ => ?_
  rw [inv_zpow', ← zpow_natCast, ← zpow_add₀ hx.ne']
  congr 1
  have := v.isLt
  simp only [Fin.revPerm_apply, Fin.val_rev]
  omega

/-- One term of the bound. -/
def tailTerm (P : PSet) (x : ℚ) : ℚ :=
  ((bumps (muOf P / 2) x ^ 256) ^ (params P).l) ^ 2 * (1 + x ^ 7) * powers (2 * 2 ^ (9 - (params P).eT)) x
    / ((((2 ^ muOf P) ^ 256) ^ (params P).l) ^ 2 * ((8 ^ 256) ^ (params P).l) ^ 2 * (2 * 2 ^ (9 - (params P).eT)) * x ^ (2048 + 8 * 2 ^ (9 - (params P).eT)))

theorem half (P : PSet) : 2 ^ (10 - (params P).eT) = 2 * 2 ^ (9 - (params P).eT) := by cases P <;> rfl

theorem card_draw (P : PSet) : Fintype.card (PatDraw P)
    = (((2 ^ muOf P) ^ 256) ^ (params P).l) ^ 2 * ((8 ^ 256) ^ (params P).l) ^ 2 * (2 * 2 ^ (9 - (params P).eT)) ^ 256 := by
  rw [Fintype.card_prod, Fintype.card_prod, Fintype.card_prod, Fintype.card_prod, card_pat]
  simp only [Fintype.card_fun, Fintype.card_fin, half]
  ring

theorem mgf_both (P : PSet) (x : ℚ) (hx : 0 < x) (k : Fin 256) :
    x ^ (-2048 : Int) * ∑ d : PatDraw P, x ^ patNoise P k d + x ^ (-2049 : Int) * ∑ d : PatDraw P, x ^ (-patNoise P k d)
      = tailTerm P x * Fintype.card (PatDraw P) := by
  have e1 := mgf_noise P x hx k
  have e2 := mgf_noise P x⁻¹ (by positivity) k
  simp only [inv_zpow'] at e2
  rw [bumps_inv] at e2
  simp only [← inv_zpow'] at e2
  have hh : ((2 ^ (10 - (params P).eT - 1) : Int)) = ((2 ^ (9 - (params P).eT) : Nat) : Int) := by cases P <;> rfl
  rw [hh] at e1 e2
  have f1 := cut_up (2 ^ (9 - (params P).eT)) x hx
  have f2 := cut_down (2 ^ (9 - (params P).eT)) x hx
  rw [← half] at f1 f2
  rw [f1] at e1
  rw [f2] at e2
  simp only [inv_zpow'] at e2
  rw [e1, e2, card_draw, tailTerm, half]
  generalize bumps (muOf P / 2) x = G
  generalize powers _ x = T
  have hD : (0 : ℚ) < ((2 * 2 ^ (9 - (params P).eT) : Nat) : ℚ) := by positivity
  have z1 : x ^ (-2048 : Int) * x ^ (-(8 * (2 ^ (9 - (params P).eT) : Nat)) : Int) = (x ^ (2048 + 8 * 2 ^ (9 - (params P).eT)))⁻¹ := by
    rw [← zpow_add₀ hx.ne', ← zpow_natCast, ← zpow_neg]
    congr 1
    push_cast
    ring
  have z2 : x ^ (-2049 : Int) * x ^ (8 - 8 * (2 ^ (9 - (params P).eT) : Nat) : Int) = x ^ 7 * (x ^ (2048 + 8 * 2 ^ (9 - (params P).eT)))⁻¹ := by
    rw [← zpow_add₀ hx.ne', ← zpow_natCast, ← zpow_natCast, ← zpow_neg, ← zpow_add₀ hx.ne']
    congr 1
    push_cast
    ring
  have hX : 0 < x ^ (2048 + 8 * 2 ^ (9 - (params P).eT)) := by positivity
  generalize x ^ (2048 + 8 * 2 ^ (9 - (params P).eT)) = X at z1 z2 hX ⊢
  calc _ = (x ^ (-2048 : Int) * x ^ (-(8 * (2 ^ (9 - (params P).eT) : Nat)) : Int)
            + x ^ (-2049 : Int) * x ^ (8 - 8 * (2 ^ (9 - (params P).eT) : Nat) : Int))
          * (((G ^ 256) ^ (params P).l) ^ 2 * (((2 * 2 ^ (9 - (params P).eT) : Nat) : ℚ) ^ 255 * T)) := by ring
    _ = _ := by
      rw [z1, z2]
      simp only [Nat.cast_mul, Nat.cast_pow, Nat.cast_ofNat] at hD ⊢
      have n1 : (0 : ℚ) < (((2 ^ muOf P) ^ 256) ^ (params P).l) ^ 2 := by positivity
      have n2 : (0 : ℚ) < ((8 ^ 256) ^ (params P).l) ^ 2 := by positivity
      generalize ((((2 : ℚ) ^ muOf P) ^ 256) ^ (params P).l) ^ 2 = N1 at n1 ⊢
      generalize (((8 : ℚ) ^ 256) ^ (params P).l) ^ 2 = N2 at n2 ⊢
      generalize ((G ^ 256) ^ (params P).l) ^ 2 = G'
      generalize (2 * 2 ^ (9 - (params P).eT) : ℚ) = D at hD ⊢
      field_simp

/-- Number of draws for which a coefficient of the noise is out of range. -/
theorem count_out (P : PSet) (x y B : ℚ) (hx : 1 ≤ x) (hy : 1 ≤ y) (hB : 1 ≤ B) (k : Fin 256) :
    (count (fun d : PatDraw P => 2048 ≤ patNoise P k d ∨ 2049 ≤ -patNoise P k d) : ℚ)
      ≤ ((1 - B) ^ 2 * tailTerm P x + 2 * B * (1 - B) * tailTerm P (x * y) + B ^ 2 * tailTerm P (x * y ^ 2)) * Fintype.card (PatDraw P) := by
  have h1 := markov3 (patNoise P k) x y B hx hy hB 2048
  have h2 := markov3 (fun d => -patNoise P k d) x y B hx hy hB 2049
  have h3 : (count (fun d : PatDraw P => 2048 ≤ patNoise P k d ∨ 2049 ≤ -patNoise P k d) : ℚ) ≤ _ := Nat.cast_le.2 (count_or _ _)
  push_cast at h3
  have x0 : 0 < x := by linarith
  have y0 : 0 < y := by linarith
  have m1 := mgf_both P x x0 k
  have m2 := mgf_both P (x * y) (by positivity) k
  have m3 := mgf_both P (x * y ^ 2) (by positivity) k
  calc _ ≤ _ := h3
    _ ≤ _ := add_le_add h1 h2
    _ = (1 - B) ^ 2 * (tailTerm P x * Fintype.card (PatDraw P)) + 2 * B * (1 - B) * (tailTerm P (x * y) * Fintype.card (PatDraw P))
        + B ^ 2 * (tailTerm P (x * y ^ 2) * Fintype.card (PatDraw P)) := by rw [← m1, ← m2, ← m3]; ring
    _ = _ := by ring

/-- The bound for the fraction of failing draws. -/
theorem fraction_ideal (P : PSet) (x y B : ℚ) (hx : 1 ≤ x) (hy : 1 ≤ y) (hB : 1 ≤ B) :
    fraction (IdealFails (params P)) ≤ 256 * ((1 - B) ^ 2 * tailTerm P x + 2 * B * (1 - B) * tailTerm P (x * y) + B ^ 2 * tailTerm P (x * y ^ 2)) := by
  let E : IdealDraw (params P) ≃ PatDraw P := Equiv.prodCongr (Equiv.prodCongr (secretEquiv P) (secretEquiv P)) (Equiv.refl _)
  have e : count (IdealFails (params P)) ≤ ∑ k : Fin 256, count (fun d : PatDraw P => 2048 ≤ patNoise P k d ∨ 2049 ≤ -patNoise P k d) := by
    refine le_trans (le_trans (count_mono fun d hd => ?_) (le_of_eq (count_equiv E
      fun d : PatDraw P => ∃ k, 2048 ≤ patNoise P k d ∨ 2049 ≤ -patNoise P k d))) (count_exists _)
    obtain ⟨k, hk⟩ := hd
    refine ⟨k, ?_⟩
    have hn : idealNoise (params P) d k = patNoise P k (E d) := by
      unfold idealNoise
      rw [secretFrom_pat, secretFrom_pat]
      rfl
    unfold NoiseOk at hk
    rw [hn] at hk
    omega
  unfold fraction
  rw [Fintype.card_congr E]
  have hN : (0 : ℚ) < (Fintype.card (PatDraw P) : ℚ) := by rw [card_draw]; positivity
  rw [div_le_iff₀ hN]
  refine le_trans (Nat.cast_le.2 e) ?_
  push_cast
  refine le_trans (Finset.sum_le_sum fun k _ => count_out P x y B hx hy hB k) ?_
  rw [Finset.sum_const, nsmul_eq_mul, Finset.card_univ, Fintype.card_fin]
  push_cast
  apply le_of_eq
  ring

/-! ### Evaluation at fractions -/

/-- Numerator of `bumps m (a/b)`. -/
def bumpsNum (m a b : Nat) : Nat :=
  ((a ^ 3 + b ^ 3) ^ 2 * (a * b)) ^ m + ((a ^ 2 + b ^ 2) ^ 2 * (a * b) ^ 2) ^ m + ((a + b) ^ 2 * (a * b) ^ 3) ^ m + (4 * (a * b) ^ 4) ^ m
    + ((a + b) ^ 2 * (a * b) ^ 3) ^ m + ((a ^ 2 + b ^ 2) ^ 2 * (a * b) ^ 2) ^ m + ((a ^ 3 + b ^ 3) ^ 2 * (a * b)) ^ m + ((a ^ 4 + b ^ 4) ^ 2) ^ m

theorem bumps_eq (m a b : Nat) (ha : 0 < a) (hb : 0 < b) : bumps m ((a : ℚ) / b) = bumpsNum m a b / ((a * b) ^ 4) ^ m := by
  have ha' : (0 : ℚ) < a := by exact_mod_cast ha
  have hb' : (0 : ℚ) < b := by exact_mod_cast hb
  have e : ∀ c : Nat, bump ((a : ℚ) / b) (c : Int) = (a ^ c + b ^ c) ^ 2 / (a * b) ^ c := by
    intro c
    unfold bump
    rw [zpow_neg, zpow_natCast, div_pow, inv_div, mul_pow]
    have : (0 : ℚ) < a ^ c := by positivity
    have : (0 : ℚ) < b ^ c := by positivity
    field_simp
    ring
  have e' : ∀ c : Nat, bump ((a : ℚ) / b) (-(c : Int)) = (a ^ c + b ^ c) ^ 2 / (a * b) ^ c := fun c => by rw [bump_neg, e]
  have f : ∀ c d : Nat, c + d = 4 → (((a : ℚ) ^ c + b ^ c) ^ 2 / (a * b) ^ c) ^ m = ((a ^ c + b ^ c) ^ 2 * (a * b) ^ d) ^ m / ((a * b) ^ 4) ^ m := by
    intro c d hcd
    rw [← div_pow, ← hcd, pow_add]
    congr 1
    field_simp
  unfold bumps
  simp only [Fin.sum_univ_eight]
  have g := fun c : Nat => e c
  show bump _ (-(3 : Nat)) ^ m + bump _ (-(2 : Nat)) ^ m + bump _ (-(1 : Nat)) ^ m + bump _ ((0 : Nat) : Int) ^ m + bump _ ((1 : Nat) : Int) ^ m
    + bump _ ((2 : Nat) : Int) ^ m + bump _ ((3 : Nat) : Int) ^ m + bump _ ((4 : Nat) : Int) ^ m = _
  rw [e', e', e', e, e, e, e, e, f 3 1 rfl, f 2 2 rfl, f 1 3 rfl, f 0 4 rfl, f 4 0 rfl]
  unfold bumpsNum
  push_cast
  rw [← add_div, ← add_div, ← add_div, ← add_div, ← add_div, ← add_div, ← add_div]
  congr 1
  norm_num

/-- Numerator of `powers D (a/b)`, over `b^(8 (D - 1))`. -/
def powersNum (D a b : Nat) : Nat := ∑ v ∈ Finset.range D, a ^ (8 * v) * b ^ (8 * (D - 1 - v))

theorem powers_eq (D a b : Nat) (hb : 0 < b) : powers D ((a : ℚ) / b) = powersNum D a b / b ^ (8 * (D - 1)) := by
  have hb' : (0 : ℚ) < b := by exact_mod_cast hb
  unfold powers powersNum
  rw [Finset.sum_range]
  push_cast
  rw [Finset.sum_div]
  refine Finset.sum_congr rfl fun v _ => ?_
  have := v.isLt
  rw [div_pow, div_eq_div_iff (by positivity) (by positivity), mul_assoc, ← pow_add]
  congr 2
  omega

/-- Numerator and denominator of `tailTerm P (a/b)`. -/
def termNum (P : PSet) (a b : Nat) : Nat :=
  bumpsNum (muOf P / 2) a b ^ (512 * (params P).l) * (b ^ 7 + a ^ 7) * powersNum (2 * 2 ^ (9 - (params P).eT)) a b
    * b ^ (2048 + 8 * 2 ^ (9 - (params P).eT))

/-- Numerator and denominator of `tailTerm P (a/b)`. -/
def termDen (P : PSet) (a b : Nat) : Nat :=
  (a * b) ^ (4 * (muOf P / 2) * (512 * (params P).l)) * 2 ^ ((muOf P + 3) * (512 * (params P).l)) * b ^ 7 * b ^ (8 * (2 * 2 ^ (9 - (params P).eT) - 1))
    * (2 * 2 ^ (9 - (params P).eT)) * a ^ (2048 + 8 * 2 ^ (9 - (params P).eT))

theorem term_eq (P : PSet) (a b : Nat) (ha : 0 < a) (hb : 0 < b) : tailTerm P ((a : ℚ) / b) = termNum P a b / termDen P a b := by
  have ha' : (0 : ℚ) < a := by exact_mod_cast ha
  have hb' : (0 : ℚ) < b := by exact_mod_cast hb
  unfold tailTerm termNum termDen
  rw [bumps_eq _ a b ha hb, powers_eq _ a b hb]
  simp only [Nat.cast_mul, Nat.cast_pow, Nat.cast_ofNat, Nat.cast_add]
  have e1 : (((((bumpsNum (muOf P / 2) a b : ℚ) / ((a * b) ^ 4) ^ (muOf P / 2)) ^ 256) ^ (params P).l) ^ 2)
      = (bumpsNum (muOf P / 2) a b : ℚ) ^ (512 * (params P).l) / (a * b) ^ (4 * (muOf P / 2) * (512 * (params P).l)) := by
    rw [div_pow, div_pow, div_pow, ← pow_mul, ← pow_mul, ← pow_mul, ← pow_mul, ← pow_mul, ← pow_mul]
    congr 2 <;> ring
  have e2 : ((((2 : ℚ) ^ muOf P) ^ 256) ^ (params P).l) ^ 2 * (((8 : ℚ) ^ 256) ^ (params P).l) ^ 2 = 2 ^ ((muOf P + 3) * (512 * (params P).l)) := by
    rw [show (8 : ℚ) = 2 ^ 3 by norm_num]
    rw [← pow_mul, ← pow_mul, ← pow_mul, ← pow_mul, ← pow_mul, ← pow_mul, ← pow_add]
    congr 1
    ring
  rw [e1, e2, div_pow, div_pow]
  generalize (bumpsNum (muOf P / 2) a b : ℚ) ^ (512 * (params P).l) = v1
  have p2 : (0 : ℚ) < ((a : ℚ) * b) ^ (4 * (muOf P / 2) * (512 * (params P).l)) := by positivity
  generalize ((a : ℚ) * b) ^ (4 * (muOf P / 2) * (512 * (params P).l)) = v2 at p2 ⊢
  generalize (powersNum (2 * 2 ^ (9 - (params P).eT)) a b : ℚ) = v3
  have p4 : (0 : ℚ) < 2 ^ ((muOf P + 3) * (512 * (params P).l)) := by positivity
  generalize (2 : ℚ) ^ ((muOf P + 3) * (512 * (params P).l)) = v4 at p4 ⊢
  have p5 : (0 : ℚ) < (b : ℚ) ^ (8 * (2 * 2 ^ (9 - (params P).eT) - 1)) := by positivity
  generalize (b : ℚ) ^ (8 * (2 * 2 ^ (9 - (params P).eT) - 1)) = v5 at p5 ⊢
  have p6 : (0 : ℚ) < (a : ℚ) ^ (2048 + 8 * 2 ^ (9 - (params P).eT)) := by positivity
  generalize (a : ℚ) ^ (2048 + 8 * 2 ^ (9 - (params P).eT)) = v6 at p6 ⊢
  have p7 : (0 : ℚ) < (b : ℚ) ^ (2048 + 8 * 2 ^ (9 - (params P).eT)) := by positivity
  generalize (b : ℚ) ^ (2048 + 8 * 2 ^ (9 - (params P).eT)) = v7 at p7 ⊢
  field_simp

theorem termDen_pos (P : PSet) (a b : Nat) (ha : 0 < a) (hb : 0 < b) : 0 < termDen P a b := by
  unfold termDen; positivity

theorem term_le (P : PSet) (a b u t : Nat) (ha : 0 < a) (hb : 0 < b) (h : termNum P a b * 2 ^ t ≤ u * termDen P a b) :
    tailTerm P ((a : ℚ) / b) ≤ u / 2 ^ t := by
  have hd : (0 : ℚ) < (termDen P a b : ℚ) := by exact_mod_cast termDen_pos P a b ha hb
  rw [term_eq P a b ha hb, div_le_div_iff₀ hd (by positivity)]
  exact_mod_cast h

theorem le_term (P : PSet) (a b u t : Nat) (ha : 0 < a) (hb : 0 < b) (h : u * termDen P a b ≤ termNum P a b * 2 ^ t) :
    (u : ℚ) / 2 ^ t ≤ tailTerm P ((a : ℚ) / b) := by
  have hd : (0 : ℚ) < (termDen P a b : ℚ) := by exact_mod_cast termDen_pos P a b ha hb
  rw [term_eq P a b ha hb, div_le_div_iff₀ (by positivity) hd]
  exact_mod_cast h

end Saber.Law
