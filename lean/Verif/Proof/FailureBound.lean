import Verif.Proof.Failure
import Verif.Props.Kem
/-!
# Bounds for the failure probability: from counts of patterns to fractions of byte strings
-/
namespace Saber.Law
open Spec Saber.Props Saber.Prob

theorem mu_params (P : PSet) : (params P).mu = muOf P := by cases P <;> rfl

theorem mu_even (P : PSet) : (params P).mu % 2 = 0 := by cases P <;> rfl

/-- The patterns of a secret. -/
abbrev Pat (P : PSet) := Fin (params P).l → Fin 256 → Fin (2 ^ muOf P)

/-- Byte strings for a secret are families of patterns. -/
def secretEquiv (P : PSet) : Bytes (params P).secretBytes ≃ Pat P := match P with
  | .light => vecEquiv 2 10
  | .saber => vecEquiv 3 8
  | .fire => vecEquiv 4 6

theorem secretFrom_pat (P : PSet) (b : Bytes (params P).secretBytes) :
    secretFrom (params P) (List.ofFn b) = vals (muOf P) (secretEquiv P b) := by
  have := secretFrom_eq (params P) (mu_even P) b
  cases P <;> exact this

theorem card_pat (P : PSet) : Fintype.card (Pat P) = ((2 ^ muOf P) ^ 256) ^ (params P).l := by
  rw [Fintype.card_fun, Fintype.card_fun, Fintype.card_fin, Fintype.card_fin, Fintype.card_fin]

theorem count_exchange (P : PSet) (A : PMat (params P).l) (x : ℚ) (hx : 1 ≤ x) (H : Nat) (hH : 2 * H + 8 * 2 ^ (9 - (params P).eT) ≤ 2050) :
    fraction (fun d : Bytes (params P).secretBytes × Bytes (params P).secretBytes =>
        ExchangeFails (params P) A (List.ofFn d.1) (List.ofFn d.2))
      ≤ 1024 * (bump x 4 ^ (muOf P / 2 * 256 * (params P).l) * (x ^ H)⁻¹) / (((2 ^ muOf P) ^ 256) ^ (params P).l : Nat) := by
  have h := count_fails P (params P).eT (params_eT P) A x hx H hH
  have e : count (fun d : Bytes (params P).secretBytes × Bytes (params P).secretBytes =>
        ExchangeFails (params P) A (List.ofFn d.1) (List.ofFn d.2))
      = count (fun d : Pat P × Pat P => ∃ k, ¬ NoiseOk (noise (params P).eT A (vals (muOf P) d.1) (vals (muOf P) d.2)) k) := by
    refine Eq.trans ?_ (count_equiv (Equiv.prodCongr (secretEquiv P) (secretEquiv P))
      fun d : Pat P × Pat P => ∃ k, ¬ NoiseOk (noise (params P).eT A (vals (muOf P) d.1) (vals (muOf P) d.2)) k)
    refine congrArg count (funext fun d => ?_)
    unfold ExchangeFails
    rw [secretFrom_pat, secretFrom_pat]
    rfl
  unfold fraction
  rw [e, Fintype.card_congr (Equiv.prodCongr (secretEquiv P) (secretEquiv P)), Fintype.card_prod]
  have hN : (0 : ℚ) < (Fintype.card (Pat P) : ℚ) := by
    rw [card_pat]; positivity
  rw [← card_pat, Nat.cast_mul, div_le_div_iff₀ (by positivity) hN]
  calc _ ≤ _ := mul_le_mul_of_nonneg_right h hN.le
    _ = _ := by ring

/-- The number on the right of `count_exchange` for `x = a/b`. -/
theorem bound_le (a b M H N t : Nat) (ha : 0 < a) (hb : 0 < b) (hN : 0 < N)
    (h : 2 ^ (10 + t) * (a ^ 4 + b ^ 4) ^ (2 * M) * b ^ H ≤ (a ^ 4 * b ^ 4) ^ M * N * a ^ H) :
    1024 * (bump ((a : ℚ) / b) 4 ^ M * ((((a : ℚ) / b)) ^ H)⁻¹) / (N : ℚ) ≤ 1 / 2 ^ t := by
  have ha' : (0 : ℚ) < a := by exact_mod_cast ha
  have hb' : (0 : ℚ) < b := by exact_mod_cast hb
  have hN' : (0 : ℚ) < N := by exact_mod_cast hN
  have e : bump ((a : ℚ) / b) 4 = (a ^ 4 + b ^ 4) ^ 2 / (a ^ 4 * b ^ 4) := by
    unfold bump
    rw [zpow_neg, show ((a : ℚ) / b) ^ (4 : Int) = ((a : ℚ) / b) ^ 4 from rfl]
    field_simp
    ring
  have hq : (2 ^ (10 + t) * (a ^ 4 + b ^ 4) ^ (2 * M) * b ^ H : ℚ) ≤ (a ^ 4 * b ^ 4) ^ M * N * a ^ H := by exact_mod_cast h
  rw [e, div_pow, div_pow, ← pow_mul, inv_div, div_le_div_iff₀ hN' (by positivity), one_mul]
  rw [show 1024 * ((a ^ 4 + b ^ 4 : ℚ) ^ (2 * M) / (a ^ 4 * b ^ 4) ^ M * (b ^ H / a ^ H)) * 2 ^ t
    = (2 ^ (10 + t) * (a ^ 4 + b ^ 4) ^ (2 * M) * b ^ H) / ((a ^ 4 * b ^ 4) ^ M * a ^ H) by rw [pow_add]; field_simp; norm_num]
  rw [div_le_iff₀ (by positivity)]
  calc _ ≤ _ := hq
    _ = _ := by ring

end Saber.Law
