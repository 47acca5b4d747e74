import Verif.Proof.IdealFailure
import Verif.Props.USaber
import Verif.Spec.UFailure
/-!
# The failure probability of the idealised exchange of uSaber
-/
namespace Saber.U.Law
open Spec Saber.Prob Saber.Law

/-- Value of a pattern of two bits. -/
def val2 (b : Fin 4) : Int := if b.val < 2 then (b.val : Int) else (b.val : Int) - 4

/-- The values of a family of patterns. -/
def vals2 {l : Nat} (w : Fin l → Fin 256 → Fin 4) : PVec l := fun j i => val2 (w j i)

/-- The generating function of the product of a rounding error and a secret coefficient. -/
def pairs (x : ℚ) : ℚ := ∑ v : Fin 4, ∑ b : Fin 4, x ^ (((v.val : Int) - 1) * val2 b)

theorem sum_prod1 {ι κ : Type} [Fintype ι] [DecidableEq ι] [Fintype κ] (g : ι → κ → ℚ) : ∑ w : ι → κ, ∏ i, g i (w i) = ∏ i, ∑ b, g i b :=
  (Fintype.prod_sum g).symm

theorem mgf_inner2 {l : Nat} (x : ℚ) (hx : 0 < x) (k : Fin 256) :
    ∑ e : Fin l → Fin 256 → Fin 4, ∑ w : Fin l → Fin 256 → Fin 4, x ^ (innerProd (fun i n => ((e i n).val : Int) - 1) (vals2 w) k)
      = (∏ i : Fin 256, if k - i ≤ k then pairs x else pairs x⁻¹) ^ l := by
  have e1 : ∀ (e w : Fin l → Fin 256 → Fin 4), innerProd (fun i n => ((e i n).val : Int) - 1) (vals2 w) k
      = ∑ j, ∑ i, (if k - i ≤ k then 1 else -1) * (((e j (k - i)).val : Int) - 1) * val2 (w j i) := by
    intro e w
    unfold innerProd
    exact Finset.sum_congr rfl fun j _ => negMul_eq _ _ _
  simp only [e1]
  have e2 : ∀ e : Fin l → Fin 256 → Fin 4,
      ∑ w : Fin l → Fin 256 → Fin 4, x ^ (∑ j, ∑ i, (if k - i ≤ k then 1 else -1) * (((e j (k - i)).val : Int) - 1) * val2 (w j i))
        = ∏ j, ∏ i, ∑ b : Fin 4, x ^ ((if i ≤ k then 1 else -1) * (((e j i).val : Int) - 1) * val2 b) := by
    intro e
    rw [mgf2 (κ := Fin 4) x hx.ne' fun j i b => (if k - i ≤ k then 1 else -1) * (((e j (k - i)).val : Int) - 1) * val2 b]
    refine Finset.prod_congr rfl fun j _ => ?_
    rw [← Equiv.prod_comp (Equiv.subLeft k) fun i => ∑ b : Fin 4, x ^ ((if i ≤ k then 1 else -1) * (((e j i).val : Int) - 1) * val2 b)]
    rfl
  simp only [e2]
  rw [← Fintype.prod_sum (fun (_ : Fin l) (v : Fin 256 → Fin 4) => ∏ i, ∑ b : Fin 4, x ^ ((if i ≤ k then 1 else -1) * (((v i).val : Int) - 1) * val2 b)),
    Finset.prod_const, Finset.card_univ, Fintype.card_fin]
  refine congrArg (fun y : ℚ => y ^ l) ?_
  refine Eq.trans (sum_prod1 (fun (i : Fin 256) (v : Fin 4) => ∑ b : Fin 4, x ^ ((if i ≤ k then 1 else -1) * ((v.val : Int) - 1) * val2 b))) ?_
  refine Eq.trans (Equiv.prod_comp (Equiv.subLeft k) _).symm ?_
  refine Finset.prod_congr rfl fun i _ => ?_
  simp only [Equiv.subLeft_apply]
  unfold pairs
  split
  · simp only [one_mul]
  · refine Finset.sum_congr rfl fun v _ => Finset.sum_congr rfl fun b _ => ?_
    rw [inv_zpow']
    congr 1
    ring

theorem mgf_both_inner (l : Nat) (x : ℚ) (k : Fin 256) :
    (∏ i : Fin 256, if k - i ≤ k then pairs x else pairs x⁻¹) ^ l * (∏ i : Fin 256, if k - i ≤ k then pairs x⁻¹ else pairs x⁻¹⁻¹) ^ l
      = ((pairs x * pairs x⁻¹) ^ 256) ^ l := by
  rw [← mul_pow, ← Finset.prod_mul_distrib, inv_inv]
  congr 1
  rw [show ((pairs x * pairs x⁻¹) ^ 256) = ∏ _i : Fin 256, (pairs x * pairs x⁻¹) by rw [Finset.prod_const, Finset.card_univ, Fintype.card_fin]]
  refine Finset.prod_congr rfl fun i _ => ?_
  split
  · rfl
  · ring

/-- The draws of an idealised exchange with patterns instead of bytes. -/
abbrev PatDraw (l eT : Nat) :=
  ((Fin l → Fin 256 → Fin 4) × (Fin l → Fin 256 → Fin 4)) × ((Fin l → Fin 256 → Fin 4) × (Fin l → Fin 256 → Fin 4)) × (Fin 256 → Fin (2 * 2 ^ (9 - eT)))

/-- The noise of an idealised exchange with patterns instead of bytes. -/
def patNoise (l eT : Nat) (k : Fin 256) (d : PatDraw l eT) : Int :=
  innerProd (fun i n => ((d.2.1.1 i n).val : Int) - 1) (vals2 d.1.1) k
    - innerProd (fun i n => ((d.2.1.2 i n).val : Int) - 1) (vals2 d.1.2) k
    + 4 * (((d.2.2 k).val : Int) - (2 ^ (9 - eT) : Nat))

/-- The part of the noise that is cut off. -/
theorem mgf_cut (D : Nat) (x : ℚ) (hx : 0 < x) (k : Fin 256) (h : Int) :
    ∑ c : Fin 256 → Fin D, x ^ (4 * (((c k).val : Int) - h)) = (D : ℚ) ^ 255 * ∑ v : Fin D, x ^ (4 * ((v.val : Int) - h)) := by
  have e : ∀ c : Fin 256 → Fin D, 4 * (((c k).val : Int) - h) = ∑ i, if i = k then 4 * (((c i).val : Int) - h) else 0 := by
    intro c
    rw [Finset.sum_ite_eq' Finset.univ k fun i => 4 * (((c i).val : Int) - h), if_pos (Finset.mem_univ _)]
  simp only [e]
  rw [mgf x hx.ne' fun i (b : Fin D) => if i = k then 4 * ((b.val : Int) - h) else 0]
  rw [← Finset.mul_prod_erase Finset.univ _ (Finset.mem_univ k)]
  have e2 : ∀ i ∈ Finset.univ.erase k, (∑ b : Fin D, x ^ (if i = k then 4 * ((b.val : Int) - h) else 0)) = (D : ℚ) := by
    intro i hi
    simp only [if_neg (Finset.ne_of_mem_erase hi)]
    simp
  rw [Finset.prod_congr rfl e2, Finset.prod_const, Finset.card_erase_of_mem (Finset.mem_univ k), Finset.card_univ, Fintype.card_fin, mul_comm]
  simp

/-- The generating function of a coefficient of the noise. -/
theorem mgf_noise (l eT : Nat) (x : ℚ) (hx : 0 < x) (k : Fin 256) :
    ∑ d : PatDraw l eT, x ^ patNoise l eT k d = ((pairs x * pairs x⁻¹) ^ 256) ^ l
      * (((2 * 2 ^ (9 - eT) : Nat) : ℚ) ^ 255 * ∑ v : Fin (2 * 2 ^ (9 - eT)), x ^ (4 * ((v.val : Int) - (2 ^ (9 - eT) : Nat)))) := by
  have h1 := mgf_inner2 (l := l) x hx k
  have h2 := mgf_inner2 (l := l) x⁻¹ (by positivity) k
  rw [← mgf_cut _ x hx k, ← mgf_both_inner l x k, ← h1, ← h2]
  have e : ∀ d : PatDraw l eT, x ^ patNoise l eT k d
      = x ^ (innerProd (fun i n => ((d.2.1.1 i n).val : Int) - 1) (vals2 d.1.1) k)
        * x⁻¹ ^ (innerProd (fun i n => ((d.2.1.2 i n).val : Int) - 1) (vals2 d.1.2) k)
        * x ^ (4 * (((d.2.2 k).val : Int) - (2 ^ (9 - eT) : Nat))) := by
    intro d
    unfold patNoise
    rw [zpow_add₀ hx.ne', zpow_sub₀ hx.ne', inv_zpow]
    rfl
  rw [Finset.sum_congr rfl fun d _ => e d]
  exact sum_draw (fun (e w : Fin l → Fin 256 → Fin 4) => x ^ (innerProd (fun i n => ((e i n).val : Int) - 1) (vals2 w) k))
    (fun (e w : Fin l → Fin 256 → Fin 4) => x⁻¹ ^ (innerProd (fun i n => ((e i n).val : Int) - 1) (vals2 w) k))
    (fun c : Fin 256 → Fin (2 * 2 ^ (9 - eT)) => x ^ (4 * (((c k).val : Int) - (2 ^ (9 - eT) : Nat))))

/-- `1 + x^4 + x^8 + ...` with `D` terms -/
def powers (D : Nat) (x : ℚ) : ℚ := ∑ v : Fin D, x ^ (4 * v.val)

theorem cut_up (h : Nat) (x : ℚ) (hx : 0 < x) : ∑ v : Fin (2 * h), x ^ (4 * ((v.val : Int) - h)) = x ^ (-(4 * h : Int)) * powers (2 * h) x := by
  unfold powers
  rw [Finset.mul_sum]
  refine Finset.sum_congr rfl fun v _ => ?_
  rw [← zpow_natCast, ← zpow_add₀ hx.ne']
  congr 1
  push_cast
  ring

theorem cut_down (h : Nat) (x : ℚ) (hx : 0 < x) : ∑ v : Fin (2 * h), x⁻¹ ^ (4 * ((v.val : Int) - h)) = x ^ (4 - 4 * h : Int) * powers (2 * h) x := by
  unfold powers
  rw [← Equiv.sum_comp Fin.revPerm, Finset.mul_sum]
  refine Finset.sum_congr rfl fun v _ => ?_
  rw [inv_zpow', ← zpow_natCast, ← zpow_add₀ hx.ne']
  congr 1
  have := v.isLt
  simp only [Fin.revPerm_apply, Fin.val_rev]
  omega

/-- The bound for one coefficient. -/
def tailTerm (l eT : Nat) (x : ℚ) : ℚ :=
  ((pairs x * pairs x⁻¹) ^ 256) ^ l * (1 + x ^ 3) * powers (2 * 2 ^ (9 - eT)) x
    / (((256 ^ 256) ^ l) * (2 * 2 ^ (9 - eT)) * x ^ (1024 + 4 * 2 ^ (9 - eT)))

theorem card_draw (l eT : Nat) : Fintype.card (PatDraw l eT) = ((256 ^ 256) ^ l) * (2 * 2 ^ (9 - eT)) ^ 256 := by
  rw [Fintype.card_prod, Fintype.card_prod, Fintype.card_prod, Fintype.card_prod]
  simp only [Fintype.card_fun, Fintype.card_fin]
  rw [show (256 : Nat) ^ 256 = ((4 ^ 256) * (4 ^ 256)) * ((4 ^ 256) * (4 ^ 256)) by rw [← mul_pow, ← mul_pow]; rfl, mul_pow, mul_pow, mul_pow]
  generalize ((4 : Nat) ^ 256) ^ l = N
  generalize (2 * 2 ^ (9 - eT)) ^ 256 = M
  ring

theorem mgf_both (l eT : Nat) (x : ℚ) (hx : 0 < x) (k : Fin 256) :
    x ^ (-1024 : Int) * ∑ d : PatDraw l eT, x ^ patNoise l eT k d + x ^ (-1025 : Int) * ∑ d : PatDraw l eT, x ^ (-patNoise l eT k d)
      = tailTerm l eT x * Fintype.card (PatDraw l eT) := by
  have e1 := mgf_noise l eT x hx k
  have e2 := mgf_noise l eT x⁻¹ (by positivity) k
  have f1 := cut_up (2 ^ (9 - eT)) x hx
  have f2 := cut_down (2 ^ (9 - eT)) x hx
  rw [f1] at e1
  rw [f2, inv_inv, mul_comm (pairs x⁻¹)] at e2
  simp only [inv_zpow'] at e2
  rw [e1, e2, card_draw, tailTerm]
  generalize pairs x * pairs x⁻¹ = G
  generalize powers _ x = T
  have hD : (0 : ℚ) < ((2 * 2 ^ (9 - eT) : Nat) : ℚ) := by positivity
  have z1 : x ^ (-1024 : Int) * x ^ (-(4 * (2 ^ (9 - eT) : Nat)) : Int) = (x ^ (1024 + 4 * 2 ^ (9 - eT)))⁻¹ := by
    rw [← zpow_add₀ hx.ne', ← zpow_natCast, ← zpow_neg]
    congr 1
    push_cast
    ring
  have z2 : x ^ (-1025 : Int) * x ^ (4 - 4 * (2 ^ (9 - eT) : Nat) : Int) = x ^ 3 * (x ^ (1024 + 4 * 2 ^ (9 - eT)))⁻¹ := by
    rw [← zpow_add₀ hx.ne', ← zpow_natCast, ← zpow_natCast, ← zpow_neg, ← zpow_add₀ hx.ne']
    congr 1
    push_cast
    ring
  have hX : 0 < x ^ (1024 + 4 * 2 ^ (9 - eT)) := by positivity
  generalize x ^ (1024 + 4 * 2 ^ (9 - eT)) = X at z1 z2 hX ⊢
  calc _ = (x ^ (-1024 : Int) * x ^ (-(4 * (2 ^ (9 - eT) : Nat)) : Int) + x ^ (-1025 : Int) * x ^ (4 - 4 * (2 ^ (9 - eT) : Nat) : Int))
          * ((G ^ 256) ^ l * (((2 * 2 ^ (9 - eT) : Nat) : ℚ) ^ 255 * T)) := by ring
    _ = _ := by
      rw [z1, z2]
      simp only [Nat.cast_mul, Nat.cast_pow, Nat.cast_ofNat] at hD ⊢
      have n1 : (0 : ℚ) < (256 ^ 256) ^ l := by positivity
      generalize ((256 : ℚ) ^ 256) ^ l = N1 at n1 ⊢
      generalize (G ^ 256) ^ l = G'
      generalize (2 * 2 ^ (9 - eT) : ℚ) = D at hD ⊢
      field_simp

/-- Number of draws for which a coefficient of the noise is out of range. -/
theorem count_out (l eT : Nat) (x : ℚ) (hx : 1 ≤ x) (k : Fin 256) :
    (count (fun d : PatDraw l eT => 1024 ≤ patNoise l eT k d ∨ 1025 ≤ -patNoise l eT k d) : ℚ) ≤ tailTerm l eT x * Fintype.card (PatDraw l eT) := by
  have x0 : 0 < x := by linarith
  have m : ∀ (f : PatDraw l eT → Int) (H : Int), (count (fun d => H ≤ f d) : ℚ) ≤ x ^ (-H) * ∑ d, x ^ f d := by
    intro f H
    have := markov f x hx H
    rw [zpow_neg, ← div_eq_inv_mul, le_div_iff₀ (by positivity)]
    exact this
  have h3 : (count (fun d : PatDraw l eT => 1024 ≤ patNoise l eT k d ∨ 1025 ≤ -patNoise l eT k d) : ℚ) ≤ _ := Nat.cast_le.2 (count_or _ _)
  push_cast at h3
  rw [← mgf_both l eT x x0 k]
  exact le_trans h3 (add_le_add (m _ _) (m _ _))

/-- The bound for the fraction of failing draws. -/
theorem fraction_pat (l eT : Nat) (x : ℚ) (hx : 1 ≤ x) :
    (count (fun d : PatDraw l eT => ∃ k, 1024 ≤ patNoise l eT k d ∨ 1025 ≤ -patNoise l eT k d) : ℚ)
      ≤ 256 * tailTerm l eT x * Fintype.card (PatDraw l eT) := by
  refine le_trans (Nat.cast_le.2 (count_exists _)) ?_
  push_cast
  refine le_trans (Finset.sum_le_sum fun k _ => count_out l eT x hx k) ?_
  rw [Finset.sum_const, nsmul_eq_mul, Finset.card_univ, Fintype.card_fin]
  push_cast
  apply le_of_eq
  ring

/-! ### Evaluation at fractions -/

/-- Numerator of `pairs (a/b)`. -/
def pairsNum (a b : Nat) : Nat := 7 * (a ^ 4 * b ^ 2) + 2 * (a ^ 5 * b) + 2 * (a ^ 3 * b ^ 3) + 2 * a ^ 6 + 2 * (a ^ 2 * b ^ 4) + b ^ 6

theorem pairs_eq (a b : Nat) (ha : 0 < a) (hb : 0 < b) : pairs ((a : ℚ) / b) = pairsNum a b / (a ^ 4 * b ^ 2) := by
  have ha' : (0 : ℚ) < a := by exact_mod_cast ha
  have hb' : (0 : ℚ) < b := by exact_mod_cast hb
  have e : pairs ((a : ℚ) / b) = 7 + 2 * ((a : ℚ) / b) + 2 * ((a : ℚ) / b)⁻¹ + 2 * ((a : ℚ) / b) ^ 2 + 2 * (((a : ℚ) / b) ^ 2)⁻¹ + (((a : ℚ) / b) ^ 4)⁻¹ := by
    generalize (a : ℚ) / b = x
    unfold pairs val2
    simp only [Fin.sum_univ_four]
    norm_num [zpow_ofNat, zpow_neg]
    ring
  rw [e]
  unfold pairsNum
  push_cast
  field_simp

/-- Numerator of `powers D (a/b)`, over `b^(4 (D - 1))`. -/
def powersNum (D a b : Nat) : Nat := ∑ v ∈ Finset.range D, a ^ (4 * v) * b ^ (4 * (D - 1 - v))

theorem powers_eq (D a b : Nat) (hb : 0 < b) : powers D ((a : ℚ) / b) = powersNum D a b / b ^ (4 * (D - 1)) := by
  have hb' : (0 : ℚ) < b := by exact_mod_cast hb
  unfold powers powersNum
  rw [Finset.sum_range]
  push_cast
  rw [Finset.sum_div]
  refine Finset.sum_congr rfl fun v _ => ?_
  have := v.isLt
  rw [div_pow, div_eq_div_iff (by positivity) (by positivity), mul_assoc, ← pow_add]
  congr 2
  omega

/-- Numerator and denominator of `tailTerm l eT (a/b)`. -/
def termNum (l eT a b : Nat) : Nat :=
  (pairsNum a b * pairsNum b a) ^ (256 * l) * (b ^ 3 + a ^ 3) * powersNum (2 * 2 ^ (9 - eT)) a b * b ^ (1024 + 4 * 2 ^ (9 - eT))

/-- Numerator and denominator of `tailTerm l eT (a/b)`. -/
def termDen (l eT a b : Nat) : Nat :=
  (a * b) ^ (6 * (256 * l)) * 2 ^ (8 * (256 * l)) * b ^ 3 * b ^ (4 * (2 * 2 ^ (9 - eT) - 1)) * (2 * 2 ^ (9 - eT)) * a ^ (1024 + 4 * 2 ^ (9 - eT))

theorem term_eq (l eT a b : Nat) (ha : 0 < a) (hb : 0 < b) : tailTerm l eT ((a : ℚ) / b) = termNum l eT a b / termDen l eT a b := by
  have ha' : (0 : ℚ) < a := by exact_mod_cast ha
  have hb' : (0 : ℚ) < b := by exact_mod_cast hb
  unfold tailTerm termNum termDen
  rw [inv_div, pairs_eq a b ha hb, pairs_eq b a hb ha, powers_eq _ a b hb]
  simp only [Nat.cast_mul, Nat.cast_pow, Nat.cast_ofNat, Nat.cast_add]
  have e1 : (((pairsNum a b : ℚ) / (a ^ 4 * b ^ 2) * ((pairsNum b a : ℚ) / (b ^ 4 * a ^ 2))) ^ 256) ^ l
      = ((pairsNum a b : ℚ) * pairsNum b a) ^ (256 * l) / (a * b) ^ (6 * (256 * l)) := by
    rw [← pow_mul, div_mul_div_comm, div_pow, pow_mul _ 6]
    congr 2
    ring
  have e2 : (((256 : ℚ) ^ 256) ^ l) = 2 ^ (8 * (256 * l)) := by
    rw [show (256 : ℚ) = 2 ^ 8 by norm_num, ← pow_mul, ← pow_mul]
  rw [e1, e2, div_pow, div_pow]
  generalize ((pairsNum a b : ℚ) * pairsNum b a) ^ (256 * l) = v1
  have p2 : (0 : ℚ) < ((a : ℚ) * b) ^ (6 * (256 * l)) := by positivity
  generalize ((a : ℚ) * b) ^ (6 * (256 * l)) = v2 at p2 ⊢
  generalize (powersNum (2 * 2 ^ (9 - eT)) a b : ℚ) = v3
  have p4 : (0 : ℚ) < 2 ^ (8 * (256 * l)) := by positivity
  generalize (2 : ℚ) ^ (8 * (256 * l)) = v4 at p4 ⊢
  have p5 : (0 : ℚ) < (b : ℚ) ^ (4 * (2 * 2 ^ (9 - eT) - 1)) := by positivity
  generalize (b : ℚ) ^ (4 * (2 * 2 ^ (9 - eT) - 1)) = v5 at p5 ⊢
  have p6 : (0 : ℚ) < (a : ℚ) ^ (1024 + 4 * 2 ^ (9 - eT)) := by positivity
  generalize (a : ℚ) ^ (1024 + 4 * 2 ^ (9 - eT)) = v6 at p6 ⊢
  have p7 : (0 : ℚ) < (b : ℚ) ^ (1024 + 4 * 2 ^ (9 - eT)) := by positivity
  generalize (b : ℚ) ^ (1024 + 4 * 2 ^ (9 - eT)) = v7 at p7 ⊢
  field_simp

theorem term_le (l eT a b t : Nat) (ha : 0 < a) (hb : 0 < b) (h : termNum l eT a b * 2 ^ t ≤ termDen l eT a b) :
    tailTerm l eT ((a : ℚ) / b) ≤ 1 / 2 ^ t := by
  have hd : (0 : ℚ) < (termDen l eT a b : ℚ) := by
    have : 0 < termDen l eT a b := by unfold termDen; positivity
    exact_mod_cast this
  rw [term_eq l eT a b ha hb, div_le_div_iff₀ hd (by positivity), one_mul]
  exact_mod_cast h

end Saber.U.Law
