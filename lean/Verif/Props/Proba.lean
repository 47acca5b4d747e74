import Verif.Proof.Proba3
import Verif.Props.Failure
/-!
# C75 and C76: the scripts that search for parameters

`Spec/Law.lean` defines laws of random variables on finite sets.  The model computes with exact rational numbers, the scripts with
floating point numbers.
-/
namespace Saber.Props
open Spec Saber.Proba

/-! ### C75: the laws -/

/-- C75: `law_convolution` gives the law of the sum of two independent variables, and a dictionary without repeated keys. -/
theorem C75_convolution {Ω Ω' : Type} [Fintype Ω] [Fintype Ω'] (A B : Dict) (hA : (keys A).Nodup) (hB : (keys B).Nodup) (X : Ω → Int) (Y : Ω' → Int)
    (hX : LawOf (get A) X) (hY : LawOf (get B) Y) :
    LawOf (get (law_convolution A B)) (fun w : Ω × Ω' => X w.1 + Y w.2) ∧ (keys (law_convolution A B)).Nodup :=
  ⟨combine_law (· + ·) A B hA hB X Y hX hY, nodup_combine _ A B⟩

/-- C75: `law_product` gives the law of the product of two independent variables. -/
theorem C75_product {Ω Ω' : Type} [Fintype Ω] [Fintype Ω'] (A B : Dict) (hA : (keys A).Nodup) (hB : (keys B).Nodup) (X : Ω → Int) (Y : Ω' → Int)
    (hX : LawOf (get A) X) (hY : LawOf (get B) Y) :
    LawOf (get (law_product A B)) (fun w : Ω × Ω' => X w.1 * Y w.2) ∧ (keys (law_product A B)).Nodup :=
  ⟨combine_law (· * ·) A B hA hB X Y hX hY, nodup_combine _ A B⟩

/-- C75: `iter_law_convolution` gives the law of the sum of `n` independent copies, up to the small values that are dropped on the way: no value is
larger than the probability, and what is missing in all values together is at most `(4n+1)(2nb+1)` times 2^-300. -/
theorem C75_repeated {Ω : Type} [Fintype Ω] [Nonempty Ω] (A : Dict) (hA : (keys A).Nodup) (b : Nat) (hb : ∀ x ∈ keys A, -(b : Int) ≤ x ∧ x ≤ b) (X : Ω → Int)
    (hX : LawOf (get A) X) (n : Nat) :
    (∀ x, 0 ≤ get (iter_law_convolution A n) x ∧ get (iter_law_convolution A n) x ≤ fraction fun ω => copies X n ω = x) ∧
    (∀ S : Finset Int, ∑ x ∈ S, ((fraction fun ω => copies X n ω = x) - get (iter_law_convolution A n) x) ≤ (4 * n + 1) * (2 * n * b + 1) / 2 ^ 300) := by
  have h := iter_all (below_of_law hA hb hX) n
  refine ⟨fun x => ⟨h.nonneg x, h.le x⟩, fun S => ?_⟩
  have hm := h.mass
  have h1 : ∑ x ∈ S, ((fraction fun ω => copies X n ω = x) - get (iter_law_convolution A n) x)
      ≤ ∑ x ∈ S ∪ (keys (iter_law_convolution A n)).toFinset, ((fraction fun ω => copies X n ω = x) - get (iter_law_convolution A n) x) :=
    Finset.sum_le_sum_of_subset_of_nonneg Finset.subset_union_left fun x _ _ => sub_nonneg.2 (h.le x)
  refine le_trans h1 ?_
  rw [Finset.sum_sub_distrib]
  have h2 : ∑ x ∈ S ∪ (keys (iter_law_convolution A n)).toFinset, get (iter_law_convolution A n) x = total (iter_law_convolution A n) := by
    unfold total
    symm
    refine Finset.sum_subset Finset.subset_union_right fun x _ hx => get_of_not_mem _ _ (by simpa using hx)
  have h3 : ∑ x ∈ S ∪ (keys (iter_law_convolution A n)).toFinset, (fraction fun ω : Fin n → Ω => copies X n ω = x) ≤ 1 := by
    classical
    simp only [fraction_sum]
    rw [← Finset.sum_div, Finset.sum_comm]
    have : ∀ ω : Fin n → Ω, (∑ x ∈ S ∪ (keys (iter_law_convolution A n)).toFinset, if copies X n ω = x then (1 : Rat) else 0) ≤ 1 := by
      intro ω
      rw [Finset.sum_ite_eq]
      split <;> norm_num
    refine le_trans (div_le_div_of_nonneg_right (Finset.sum_le_sum fun ω _ => this ω) (by positivity)) ?_
    rw [Finset.sum_const, Finset.card_univ, nsmul_eq_mul, mul_one]
    exact div_self_le_one _
  rw [h2]
  have e : (4 * (n : Rat) + 1) * ((2 * (n * b : Nat) + 1) / 2 ^ 300) = (4 * n + 1) * (2 * n * b + 1) / 2 ^ 300 := by push_cast; ring
  rw [e] at hm
  linarith

/-- C75: the law of the secrets that the scripts use is the distribution of the sampler of the code (C20, C63): half of MU is the parameter. -/
theorem C75_binomial (P : PSet) :
    LawOf (get (build_centered_binomial_law (muOf P / 2 : Nat))) (fun w : Fin (2 ^ muOf P) => patternValue (muOf P) w.val) ∧
    (keys (build_centered_binomial_law (muOf P / 2 : Nat))).Nodup := by
  refine ⟨fun x => ?_, nodup_binomial _⟩
  rw [binomial_law_get]
  unfold fraction
  rw [count_patternValue, Fintype.card_fin]
  unfold binomialWeight
  have hm : 2 * (muOf P / 2) = muOf P := by cases P <;> rfl
  have hc : (((muOf P / 2 : Nat) : Int)) = ((muOf P : Int) / 2) := by push_cast; rfl
  rw [hc, hm]
  split
  · push_cast; rfl
  · simp

/-- C75: `build_mod_switching_error_law` gives the law of the error of rounding to the nearest multiple of `2h = q / r`, ties to even multiples: all errors
smaller than `h` have the probability `1 / 2h`, the errors `h` and `-h` half of it. -/
theorem C75_rounding_error (h r : Nat) (hh : 1 ≤ h) (hr : 2 ≤ r) :
    LawOf (get (build_mod_switching_error_law (2 * h * r : Nat) r)) (fun x : Fin (2 * h * r) => nearestError h x) ∧
    (keys (build_mod_switching_error_law (2 * h * r : Nat) r)).Nodup ∧
    (r % 2 = 0 → ∀ d, get (build_mod_switching_error_law (2 * h * r : Nat) r) d
      = if |d| < h then (1 : Rat) / (2 * h) else if |d| = h then (1 : Rat) / (4 * h) else 0) := by
  refine ⟨switching_law h r hh hr, nodup_switching _ _, fun he d => ?_⟩
  rw [switching_law h r hh hr d]
  obtain ⟨j, rfl⟩ : ∃ j, r = 2 * j := ⟨r / 2, by omega⟩
  exact nearest_law h j hh (by omega) d

/-- C75: this is not the law of the rounding error of the code: the code never has the error -4 (or never 4, with the other sign), and the
script gives both the probability 1/16. -/
theorem C75_rounding_differs :
    get (build_mod_switching_error_law 8192 1024) 4 = 1 / 16 ∧ get (build_mod_switching_error_law 8192 1024) (-4) = 1 / 16 ∧
    (fraction fun x : Fin 8192 => roundErr (fun _ => (x.val : Int)) 0 = 4) = 1 / 8 ∧
    (fraction fun x : Fin 8192 => roundErr (fun _ => (x.val : Int)) 0 = -4) = 0 := by
  have h := (C75_rounding_error 4 1024 (by omega) (by omega)).2.2 rfl
  refine ⟨?_, ?_, ?_, ?_⟩
  · have := h 4
    norm_num at this
    exact this
  · have := h (-4)
    norm_num at this
    exact this
  · have e : (fraction fun x : Fin (8 * 1024) => roundErr (fun _ => (x.val : Int)) 0 = 4) = fraction fun w : Fin 1024 × Fin 8 => w.2 = 4 := by
      rw [← fraction_equiv (finProdFinEquiv.trans (finCongr (Nat.mul_comm 1024 8))) fun x => roundErr (fun _ => (x.val : Int)) 0 = 4]
      refine fraction_congr fun w => ?_
      have hw := w.2.isLt
      show (4 : Int) - (((w.2.val + 8 * w.1.val : Nat) : Int) + 4) % 8 = 4 ↔ _
      rw [Fin.ext_iff]
      show _ ↔ w.2.val = 4
      omega
    refine Eq.trans e ?_
    rw [fraction_prod fun (_ : Fin 1024) (s : Fin 8) => s = 4]
    simp only [fraction_fin_unique 8 (fun s => s = 4) 4 (fun s => Iff.rfl)]
    rw [Finset.sum_const, Finset.card_univ, Fintype.card_fin, nsmul_eq_mul]
    norm_num
  · refine fraction_false _ fun x => ?_
    show ¬ ((4 : Int) - ((x.val : Int) + 4) % 8 = -4)
    omega

/-- C75: `convolution_remove_dependency` with the same law twice and `q / p = m` gives the law of the difference of two copies of which the second is
drawn from those congruent to the first modulo `m`; no exception occurs if no value is 0. -/
theorem C75_conditioned {Ω : Type} [Fintype Ω] (A : Dict) (hA : (keys A).Nodup) (X : Ω → Int) (hX : LawOf (get A) X) (hpos : ∀ a ∈ keys A, get A a ≠ 0)
    (q p : Nat) : ∃ C, convolution_remove_dependency A A q p = some C ∧ (keys C).Nodup ∧ ∀ c, get C c = congruentDifference X (q / p : Nat) c := by
  refine ⟨_, remove_dependency_eq A hA q p fun a ha => lt_of_le_of_ne ?_ (Ne.symm (hpos a ha)), nodup_conditioned _ _, fun c => ?_⟩
  · rw [hX a]
    exact fraction_nonneg _
  · rw [conditioned_law A hA X hX]
    rfl

/-- C75: `distmean` and `distvariance` give mean and variance. -/
theorem C75_moments {Ω : Type} [Fintype Ω] (D : Dict) (hD : (keys D).Nodup) (X : Ω → Int) (hX : LawOf (get D) X) :
    distmean D = (∑ ω, (X ω : Rat)) / Fintype.card Ω ∧
    distvariance D = (∑ ω, ((X ω : Rat) - (∑ ω', (X ω' : Rat)) / Fintype.card Ω) ^ 2) / Fintype.card Ω :=
  ⟨distmean_law D hD X hX, distvariance_law D hD X hX⟩

/-! ### C76: tails and the search -/

/-- C76: what `tail_probability` returns: the probability that the absolute value is at least `t` and smaller than the largest value `X ω₀`. -/
theorem C76_tail_exact {Ω : Type} [Fintype Ω] (D : Dict) (X : Ω → Int) (hX : LawOf (get D) X) (hpos : ∀ x ∈ keys D, get D x ≠ 0) (ω₀ : Ω)
    (hm : ∀ ω, X ω ≤ X ω₀) (t : Rat) (ht : 0 < t) : tail_probability D t = some (fraction fun ω => t ≤ |X ω| ∧ |X ω| < X ω₀) :=
  tail_law D X hX _ (max_keys D X hX hpos ω₀ hm) t ht

/-- C76: the difference to the documented value, the probability that the absolute value is greater than `t`: values at the maximum and beyond are
missing, and the value `t` is counted. -/
theorem C76_tail_difference {Ω : Type} [Fintype Ω] (D : Dict) (X : Ω → Int) (hX : LawOf (get D) X) (hpos : ∀ x ∈ keys D, get D x ≠ 0) (ω₀ : Ω)
    (hm : ∀ ω, X ω ≤ X ω₀) (t : Rat) (ht : 0 < t) (hlt : t < X ω₀) :
    ∃ p, tail_probability D t = some p ∧
      p + (fraction fun ω => X ω₀ ≤ |X ω|) = (fraction fun ω => t < |X ω|) + (fraction fun ω => (|X ω| : Rat) = t) := by
  classical
  refine ⟨_, C76_tail_exact D X hX hpos ω₀ hm t ht, ?_⟩
  rw [fraction_sum, fraction_sum, fraction_sum, fraction_sum, ← add_div, ← add_div, ← Finset.sum_add_distrib, ← Finset.sum_add_distrib]
  congr 1
  refine Finset.sum_congr rfl fun ω _ => ?_
  have hc : ((|X ω| : Int) : Rat) = |(X ω : Rat)| := by push_cast; rfl
  rw [hc]
  by_cases h1 : |X ω| < X ω₀
  · have h2 : ¬ X ω₀ ≤ |X ω| := not_le.2 h1
    rw [if_neg h2, add_zero]
    rcases lt_trichotomy t |(X ω : Rat)| with h | h | h
    · rw [if_pos ⟨le_of_lt h, h1⟩, if_pos h, if_neg (ne_of_gt h), add_zero]
    · rw [if_pos ⟨le_of_eq h, h1⟩, if_neg (by rw [h]; exact lt_irrefl _), if_pos h.symm, zero_add]
    · rw [if_neg fun hh => absurd hh.1 (not_le.2 h), if_neg (not_lt.2 (le_of_lt h)), if_neg (ne_of_lt h), add_zero]
  · have h2 : X ω₀ ≤ |X ω| := not_lt.1 h1
    have h3 : ((X ω₀ : Int) : Rat) ≤ |(X ω : Rat)| := by rw [← hc]; exact_mod_cast h2
    have h4 : t < |(X ω : Rat)| := lt_of_lt_of_le hlt h3
    rw [if_neg fun hh => h1 hh.2, if_pos h2, if_pos h4, if_neg (ne_of_gt h4)]
    ring

/-- C76: so `tail_probability` does not do what its documentation says: for two fair coins (values -1, 0, 0, 1) and t = 1/2 it returns 0 although the
absolute value is greater than 1/2 with probability 1/2. -/
theorem C76_tail_not_documented :
    ∃ (D : Dict) (X : Fin 4 → Int), LawOf (get D) X ∧ (keys D).Nodup ∧ (∀ x ∈ keys D, get D x ≠ 0) ∧ (fraction fun ω => (1 / 2 : Rat) < |X ω|) = 1 / 2 ∧
      tail_probability D (1 / 2) = some 0 := by
  classical
  refine ⟨[(-1, 1 / 4), (0, 1 / 2), (1, 1 / 4)], ![-1, 0, 0, 1], fun x => ?_, by decide, ?_, ?_, ?_⟩
  · rw [fraction_sum, Fin.sum_univ_four]
    simp only [Proba.get, Matrix.cons_val_zero, Matrix.cons_val_one, Matrix.cons_val]
    by_cases h1 : (-1 : Int) = x
    · subst h1; norm_num
    · by_cases h2 : (0 : Int) = x
      · subst h2; norm_num
      · by_cases h3 : (1 : Int) = x
        · subst h3; norm_num
        · simp [h1, h2, h3]
  · intro x hx
    simp only [keys, List.map_cons, List.map_nil, List.mem_cons, List.not_mem_nil, or_false] at hx
    rcases hx with rfl | rfl | rfl <;> simp [Proba.get]
  · rw [fraction_sum, Fin.sum_univ_four]
    simp only [Matrix.cons_val_zero, Matrix.cons_val_one, Matrix.cons_val]
    norm_num
  · unfold tail_probability
    simp only [keys, List.map_cons, List.map_nil]
    rw [show ([-1, 0, 1] : List Int).max? = some 1 by decide]
    dsimp only
    rw [if_neg (by norm_num), show ⌈(1 / 2 : Rat)⌉ = 1 by rw [Int.ceil_eq_iff]; norm_num]
    rfl

/-- The largest failure probability that the script accepts, as in its `main` (select_params.py:101-114): 2^-100, 2^-128 and 2^-160. -/
def maxError : PSet → Int
  | .light => -100
  | .saber => -128
  | .fire => -160

/-- A pair of values is acceptable: the failure probability of the script for one coefficient is positive, and 256 times it does not exceed the bound. -/
def Acceptable (P : PSet) (logp logT : Nat) : Prop :=
  ∃ p, failure (build_centered_binomial_law (muOf P / 2 : Nat)) 8192 P.L 256 logp logT = some p ∧ 0 < p ∧ 256 * p ≤ (2 : Rat) ^ maxError P

theorem failure_main (P : PSet) (logp logT : Nat) (h1 : 10 ≤ logp) (h2 : logp < 13) (h3 : 1 ≤ logT) (h4 : logT < 13) :
    ∃ p, failure (build_centered_binomial_law (muOf P / 2 : Nat)) 8192 P.L 256 logp logT = some p ∧ 0 ≤ p := by
  have hb := C75_binomial P
  have : Nonempty (Fin (2 ^ muOf P)) := ⟨⟨0, by positivity⟩⟩
  refine failure_some _ hb.2 (muOf P / 2) (keys_binomial _) _ hb.1 13 P.L 256 logp logT (by omega) h2 h3 h4 ?_
  have : logp = 10 ∨ logp = 11 ∨ logp = 12 := by omega
  rcases this with rfl | rfl | rfl <;> cases P <;> decide

/-- C76: the three calls of `search_params` in `main` raise no exception, whatever the security estimates are, and print exactly the pairs for which
the security suffices for this and all smaller moduli `p`, and `T` is the smallest acceptable value for `p`; the sizes that are printed are those of
the formats.  A failure probability of 0 is not acceptable. -/
theorem C76_search (sec : Nat → Rat) (minsec : Rat) (P : PSet) :
    ∃ rows, search_params sec (build_centered_binomial_law (muOf P / 2 : Nat)) 8192 P.L 256 minsec (maxError P) = some rows ∧
      ∀ row, row ∈ rows ↔ ∃ logp logT, 10 ≤ logp ∧ logp < 13 ∧ (∀ p', 10 ≤ p' → p' ≤ logp → minsec ≤ sec p') ∧ 1 ≤ logT ∧ logT ≤ 2 * logp - 13 ∧
        Acceptable P logp logT ∧ (∀ T', 1 ≤ T' → T' < logT → ¬ Acceptable P logp T') ∧
        row = ⟨logp, logT, (logp * P.L * 256 / 8 + 32 : Nat), (logp * P.L * 256 / 8 + 256 * logT / 8 : Nat)⟩ := by
  have hlog : Nat.log 2 8192 = 13 := Nat.log_pow (by decide : 1 < 2) 13
  have hsome : search_params sec (build_centered_binomial_law (muOf P / 2 : Nat)) 8192 P.L 256 minsec (maxError P) ≠ none := by
    refine searchP_some _ _ _ _ _ _ _ _ fun logp hp T h1 h2 => ?_
    rw [hlog, List.range_eq_range', List.drop_range', List.mem_range'] at hp
    obtain ⟨i, hi, rfl⟩ := hp
    rw [hlog] at h2
    obtain ⟨p, e, _⟩ := failure_main P (0 + 1 * 10 + 1 * i) T (by omega) (by omega) h1 (by omega)
    rw [e]
    simp
  obtain ⟨rows, hrows⟩ := Option.ne_none_iff_exists'.1 hsome
  refine ⟨rows, hrows, fun row => ?_⟩
  have hacc : ∀ logp T, 10 ≤ logp → logp < 13 → 1 ≤ T → T < 13 →
      (Accept (build_centered_binomial_law (muOf P / 2 : Nat)) 8192 P.L 256 logp (maxError P) T ↔ Acceptable P logp T) := by
    intro logp T h1 h2 h3 h4
    obtain ⟨p, e, hp⟩ := failure_main P logp T h1 h2 h3 h4
    have hneg : maxError P < 0 := by cases P <;> decide
    constructor
    · rintro ⟨p', e1, e2⟩
      rw [e, Option.some.injEq] at e1
      subst e1
      exact ⟨p, e, (logFailure_le p hp _ hneg).1 e2⟩
    · rintro ⟨p', e1, e2⟩
      rw [e, Option.some.injEq] at e1
      subst e1
      exact ⟨p, e, (logFailure_le p hp _ hneg).2 e2⟩
  have hrow : ∀ logp T, rowOf P.L 256 logp T = ⟨logp, T, (logp * P.L * 256 / 8 + 32 : Nat), (logp * P.L * 256 / 8 + 256 * T / 8 : Nat)⟩ := by
    intro logp T
    unfold rowOf
    rw [show logp * P.L * 256 / 8 = logp * P.L * 32 by omega, show 256 * T / 8 = 32 * T by omega]
    congr 1
    · push_cast; ring
    · push_cast; ring
  rw [search_mem _ _ _ _ _ _ _ _ hrows, hlog]
  constructor
  · rintro ⟨p, T, c1, c2, c3, c4, c5, c6, c7, c8⟩
    exact ⟨p, T, c1, c2, c3, c4, c5, (hacc p T c1 c2 c4 (by omega)).1 c7, fun T' e1 e2 ha => c8 T' e1 e2 ((hacc p T' c1 c2 e1 (by omega)).2 ha), c6.trans (hrow p T)⟩
  · rintro ⟨p, T, c1, c2, c3, c4, c5, c6, c7, c8⟩
    exact ⟨p, T, c1, c2, c3, c4, c5, c8.trans (hrow p T).symm, (hacc p T c1 c2 c4 (by omega)).2 c6,
      fun T' e1 e2 ha => c7 T' e1 e2 ((hacc p T' c1 c2 e1 (by omega)).1 ha)⟩

/-- C76: the sizes that are printed for the parameters of the code are the sizes of its public keys and ciphertexts. -/
theorem C76_sizes (P : PSet) :
    10 * P.L * 256 / 8 + 32 = P.PUBLICKEYBYTES ∧ 10 * P.L * 256 / 8 + 256 * (params P).eT / 8 = P.BYTES_CCA_DEC := by
  cases P <;> exact ⟨rfl, rfl⟩

/-! ### The hypotheses are met -/

/-- A law with the hypotheses of C75 and C76: the error of rounding from 8 to 2, which is -2, -1, 0, 1, 2 with the weights 1, 2, 2, 2, 1. -/
example : get (build_mod_switching_error_law 8 2) 2 = 1 / 8 ∧ get (build_mod_switching_error_law 8 2) 1 = 1 / 4 ∧ get (build_mod_switching_error_law 8 2) 3 = 0 := by
  have h := (C75_rounding_error 2 2 (by omega) (by omega)).2.2 rfl
  have h2 := h 2
  have h1 := h 1
  have h3 := h 3
  norm_num at h1 h2 h3
  exact ⟨h2, h1, h3⟩

/-- The script would accept the modulus `p` of the code if the estimate is high enough: the first value of `logp` is 10. -/
example : (10 : Nat) < 13 ∧ (1 : Nat) ≤ 4 ∧ 4 ≤ 2 * 10 - 13 := by decide

/-- The digits of 768, the number of terms with Saber. -/
example : bin 768 = [true, true, false, false, false, false, false, false, false, false] := by
  simp [bin]

end Saber.Props
