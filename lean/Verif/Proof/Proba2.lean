import Verif.Proof.Proba
import Mathlib.Data.Rat.Floor
import Mathlib.Algebra.Order.Archimedean.Basic
import Mathlib.Data.Nat.Choose.Basic
/-!
# Proofs about the parameter search: rounding errors, conditioning, tails
-/
namespace Saber.Proba
open Spec Saber.Prob

/-! ### The error of switching between moduli -/

theorem pyRound_int (z : Int) : pyRound (z : Rat) = z := by
  unfold pyRound
  simp

theorem pyRound_div (x w : Int) (hw : 0 < w) :
    pyRound ((x : Rat) / (w : Rat)) = if 2 * (x % w) < w then x / w else if w < 2 * (x % w) then x / w + 1 else if x / w % 2 = 0 then x / w else x / w + 1 := by
  have hf : ⌊(x : Rat) / (w : Rat)⌋ = x / w := by
    rw [show (w : Rat) = ((w.toNat : Nat) : Rat) by
      rw [← Int.cast_natCast, Int.toNat_of_nonneg (le_of_lt hw)]]
    rw [Rat.floor_intCast_div_natCast, Int.toNat_of_nonneg (le_of_lt hw)]
  have hw' : (0 : Rat) < w := by exact_mod_cast hw
  have hd : (x : Rat) / w - ((x / w : Int) : Rat) = ((x % w : Int) : Rat) / w := by
    have := Int.emod_add_mul_ediv x w
    have h2 : (x : Rat) = ((x % w : Int) : Rat) + (w : Rat) * ((x / w : Int) : Rat) := by exact_mod_cast this.symm
    field_simp
    linarith
  unfold pyRound
  simp only [hf, hd]
  have h1 : (((x % w : Int) : Rat) / w < 1 / 2) ↔ 2 * (x % w) < w := by
    rw [div_lt_div_iff₀ hw' (by norm_num)]
    constructor
    · intro h
      have : ((x % w : Int) : Rat) * 2 < 1 * w := h
      have : (x % w) * 2 < 1 * w := by exact_mod_cast this
      linarith
    · intro h
      have : (x % w) * 2 < 1 * w := by linarith
      exact_mod_cast this
  have h2 : (1 / 2 < ((x % w : Int) : Rat) / w) ↔ w < 2 * (x % w) := by
    rw [div_lt_div_iff₀ (by norm_num) hw']
    constructor
    · intro h
      have : 1 * (w : Rat) < ((x % w : Int) : Rat) * 2 := h
      have : 1 * w < (x % w) * 2 := by exact_mod_cast this
      linarith
    · intro h
      have : 1 * w < (x % w) * 2 := by linarith
      exact_mod_cast this
  simp only [h1, h2]

/-- The error of switching from the modulus `2 * h * r` to `r` and back. -/
theorem switch_error (h r x : Nat) (hh : 1 ≤ h) (hr : 2 ≤ r) (hx : x < 2 * h * r) :
    mod_centered ((x : Int) - mod_switch (mod_switch x (2 * h * r : Nat) (r : Nat)) (r : Nat) (2 * h * r : Nat)) (2 * h * r : Nat) = nearestError h x := by
  have hr0 : (r : Rat) ≠ 0 := by
    have : r ≠ 0 := by omega
    exact_mod_cast this
  have hh0 : (h : Rat) ≠ 0 := by
    have : h ≠ 0 := by omega
    exact_mod_cast this
  have e1 : (((r : Int) * (x : Int) : Int) : Rat) / (((2 * h * r : Nat) : Int) : Rat) = ((x : Int) : Rat) / (((2 * h : Nat) : Int) : Rat) := by
    push_cast
    field_simp
  have e2 : ∀ y : Int, ((((2 * h * r : Nat) : Int) * y : Int) : Rat) / (((r : Nat) : Int) : Rat) = (((2 * h : Nat) * y : Int) : Rat) := by
    intro y
    push_cast
    field_simp
  have hw : (0 : Int) < ((2 * h : Nat) : Int) := by omega
  have hk : x / (2 * h) < r := by
    rw [Nat.div_lt_iff_lt_mul (by omega)]
    rw [Nat.mul_comm r]
    exact hx
  have hm : x % (2 * h) < 2 * h := Nat.mod_lt _ (by omega)
  have hdm := Nat.mod_add_div x (2 * h)
  generalize hK : x / (2 * h) = k at *
  generalize hR : x % (2 * h) = s at *
  have hq : 4 * h ≤ 2 * h * r := by nlinarith
  have hkw : 2 * h * (k + 1) ≤ 2 * h * r := Nat.mul_le_mul_left _ hk
  -- the centred remainder of a number close to 0 or to the modulus
  have hc1 : ∀ d : Nat, d ≤ h → mod_centered (d : Int) (2 * h * r : Nat) = d := by
    intro d hd
    unfold mod_centered
    rw [Int.emod_eq_of_lt (by omega) (by omega)]
    rw [if_pos]
    rw [lt_div_iff₀ (by norm_num)]
    have : d * 2 < 2 * h * r := by omega
    exact_mod_cast this
  have hc2 : ∀ d : Int, -(h : Int) ≤ d → d < 0 → mod_centered d (2 * h * r : Nat) = d := by
    intro d hd hd0
    unfold mod_centered
    have : d % ((2 * h * r : Nat) : Int) = d + (2 * h * r : Nat) := by
      rw [← Int.add_emod_right]
      exact Int.emod_eq_of_lt (by omega) (by omega)
    rw [this, if_neg]
    · omega
    · rw [not_lt, div_le_iff₀ (by norm_num)]
      have : ((2 * h * r : Nat) : Int) ≤ (d + (2 * h * r : Nat)) * 2 := by omega
      exact_mod_cast this
  have hc3 : ∀ d : Int, mod_centered (d + (2 * h * r : Nat)) (2 * h * r : Nat) = mod_centered d (2 * h * r : Nat) := by
    intro d
    unfold mod_centered
    rw [Int.add_emod_right]
  have hcast : ((2 * h * k : Nat) : Int) = ((2 * h : Nat) : Int) * (k : Int) := by push_cast; ring
  have hcast' : ((2 * h * (k + 1) : Nat) : Int) = ((2 * h : Nat) : Int) * ((k : Int) + 1) := by push_cast; ring
  have down : s ≤ h → mod_centered ((x : Int) - mod_switch ((k : Int) % ((r : Nat) : Int)) (r : Nat) (2 * h * r : Nat)) (2 * h * r : Nat) = s := by
    intro hs
    rw [Int.emod_eq_of_lt (by omega) (by omega)]
    unfold mod_switch
    rw [e2, pyRound_int, ← hcast, Int.emod_eq_of_lt (by omega) (by push_cast at hkw ⊢; nlinarith)]
    rw [show (x : Int) - ((2 * h * k : Nat) : Int) = (s : Int) by omega]
    exact hc1 s hs
  have up : h ≤ s → mod_centered ((x : Int) - mod_switch (((k : Int) + 1) % ((r : Nat) : Int)) (r : Nat) (2 * h * r : Nat)) (2 * h * r : Nat) = (s : Int) - (2 * h : Nat) := by
    intro hs
    by_cases hk1 : k + 1 < r
    · rw [Int.emod_eq_of_lt (by omega) (by omega)]
      unfold mod_switch
      have hlt : 2 * h * (k + 1) < 2 * h * r := Nat.mul_lt_mul_of_pos_left hk1 (by omega)
      rw [e2, pyRound_int, ← hcast', Int.emod_eq_of_lt (by omega) (by exact_mod_cast hlt)]
      have : 2 * h * (k + 1) = 2 * h * k + 2 * h := by ring
      rw [show (x : Int) - ((2 * h * (k + 1) : Nat) : Int) = (s : Int) - (2 * h : Nat) by omega]
      exact hc2 _ (by omega) (by omega)
    · have hkr : k + 1 = r := by omega
      rw [show ((k : Int) + 1) = (r : Int) by omega, Int.emod_self]
      unfold mod_switch
      rw [e2, mul_zero, Int.cast_zero, show pyRound 0 = 0 by simpa using pyRound_int 0, Int.zero_emod, sub_zero]
      have : 2 * h * r = 2 * h * k + 2 * h := by rw [← hkr]; ring
      rw [show (x : Int) = ((s : Int) - (2 * h : Nat)) + (2 * h * r : Nat) by omega, hc3]
      exact hc2 _ (by omega) (by omega)
  have hsw : mod_switch x (2 * h * r : Nat) (r : Nat) = pyRound (((x : Int) : Rat) / (((2 * h : Nat) : Int) : Rat)) % (r : Nat) := by
    unfold mod_switch
    rw [e1]
  rw [hsw, pyRound_div _ _ hw]
  have i1 : (x : Int) % ((2 * h : Nat) : Int) = s := by exact_mod_cast hR
  have i2 : (x : Int) / ((2 * h : Nat) : Int) = k := by exact_mod_cast hK
  rw [i1, i2]
  unfold nearestError
  rw [hR, hK]
  by_cases c1 : s < h
  · rw [if_pos (by omega), if_pos c1]
    exact down (by omega)
  · rw [if_neg (by omega), if_neg c1]
    by_cases c2 : h < s
    · rw [if_pos (by omega), if_pos c2]
      exact up (by omega)
    · have hs : s = h := by omega
      rw [if_neg (by omega), if_neg c2]
      by_cases c3 : k % 2 = 0
      · rw [if_pos (by omega), if_pos c3, down (by omega), hs]
      · rw [if_neg (by omega), if_neg c3, up (by omega), hs]
        push_cast
        ring

theorem mem_range (a b x : Int) : x ∈ range a b ↔ a ≤ x ∧ x < b := by
  unfold range
  simp only [List.mem_map, List.mem_range]
  constructor
  · rintro ⟨i, hi, rfl⟩
    omega
  · intro h
    exact ⟨(x - a).toNat, by omega, by omega⟩

theorem nodup_range (a b : Int) : (range a b).Nodup := by
  unfold range
  exact List.Nodup.map (fun i j h => by simpa using h) List.nodup_range

theorem range_zero (n : Nat) : range 0 n = (List.range n).map fun i : Nat => (i : Int) := by
  unfold range
  simp

theorem switching_law (h r : Nat) (hh : 1 ≤ h) (hr : 2 ≤ r) :
    LawOf (get (build_mod_switching_error_law (2 * h * r : Nat) (r : Nat))) fun x : Fin (2 * h * r) => nearestError h x := by
  classical
  intro d
  unfold build_mod_switching_error_law
  rw [foldl_get _ (fun x c => if mod_centered (x - mod_switch (mod_switch x (2 * h * r : Nat) (r : Nat)) (r : Nat) (2 * h * r : Nat)) (2 * h * r : Nat) = c
    then 1 / (((2 * h * r : Nat) : Int) : Rat) else 0) (fun C x c => get_bump C _ _ c), get_nil, zero_add, range_zero, List.map_map, ← List.sum_toFinset _ List.nodup_range]
  rw [fraction_sum, Fintype.card_fin, List.toFinset_range, Finset.sum_range, Finset.sum_div]
  refine Finset.sum_congr rfl fun x _ => ?_
  simp only [Function.comp]
  rw [switch_error h r x hh hr x.isLt]
  split <;> simp

theorem nodup_switching (q rq : Int) : (keys (build_mod_switching_error_law q rq)).Nodup := by
  unfold build_mod_switching_error_law
  exact foldl_nodup _ (fun C i hC => nodup_set _ _ _ hC) _ _ (by simp [keys])

theorem keys_switching (h r : Nat) (hh : 1 ≤ h) (hr : 2 ≤ r) :
    ∀ x ∈ keys (build_mod_switching_error_law (2 * h * r : Nat) (r : Nat)), -(h : Int) ≤ x ∧ x ≤ h := by
  unfold build_mod_switching_error_law
  refine foldl_keys _ _ _ (fun C x hx hC => ?_) _ (by simp [keys])
  intro y hy
  rw [mem_keys_set] at hy
  rcases hy with hy | rfl
  · exact hC y hy
  · rw [mem_range] at hx
    obtain ⟨n, rfl⟩ := Int.eq_ofNat_of_zero_le hx.1
    rw [switch_error h r n hh hr (by exact_mod_cast hx.2)]
    unfold nearestError
    have := Nat.mod_lt n (show 0 < 2 * h by omega)
    split
    · omega
    · split
      · omega
      · split <;> omega

/-! ### Conditioning -/

theorem foldlM_some {ι : Type} (step : Dict → ι → Option Dict) (step' : Dict → ι → Dict) (l : List ι) (hs : ∀ C, ∀ i ∈ l, step C i = some (step' C i)) (C : Dict) :
    l.foldlM step C = some (l.foldl step' C) := by
  induction l generalizing C with
  | nil => rfl
  | cons a t ih =>
    rw [List.foldlM_cons, hs C a List.mem_cons_self]
    exact ih (fun C i hi => hs C i (List.mem_cons_of_mem _ hi)) _

/-- The dictionary `normalizer`. -/
def normalizer (A : Dict) (m : Int) : Dict := (keys A).foldl (fun N a => set N (a % m) (get N (a % m) + get A a)) []

theorem get_normalizer (A : Dict) (hA : (keys A).Nodup) (m r : Int) :
    get (normalizer A m) r = ∑ a ∈ (keys A).toFinset, get A a * if a % m = r then 1 else 0 := by
  unfold normalizer
  rw [foldl_get _ (fun a c => if a % m = c then get A a else 0) (fun C a c => get_bump C _ _ c), get_nil, zero_add, list_sum_keys A hA]
  refine Finset.sum_congr rfl fun a _ => ?_
  split <;> simp

theorem normalizer_pos (A : Dict) (hA : (keys A).Nodup) (m : Int) (hpos : ∀ a ∈ keys A, 0 < get A a) (a : Int) (ha : a ∈ keys A) : 0 < get (normalizer A m) (a % m) := by
  rw [get_normalizer A hA]
  refine lt_of_lt_of_le ?_ (Finset.single_le_sum (f := fun b => get A b * if b % m = a % m then 1 else 0) ?_ (List.mem_toFinset.2 ha))
  · simpa using hpos a ha
  · intro b hb
    refine mul_nonneg (le_of_lt (hpos b (List.mem_toFinset.1 hb))) ?_
    split <;> simp

/-- The loops of `convolution_remove_dependency` without exceptions. -/
def conditioned (A : Dict) (m : Int) : Dict :=
  (keys A).foldl (fun C a => (keys A).foldl (fun C b =>
    if (a - b) % m = 0 then set C (a - b) (get C (a - b) + get A a * get A b / get (normalizer A m) (a % m)) else C) C) []

theorem remove_dependency_eq (A : Dict) (hA : (keys A).Nodup) (q p : Int) (hpos : ∀ a ∈ keys A, 0 < get A a) :
    convolution_remove_dependency A A q p = some (conditioned A (q.tdiv p)) := by
  unfold convolution_remove_dependency conditioned
  refine foldlM_some _ _ _ (fun C a ha => ?_) _
  refine foldlM_some _ _ _ (fun C b hb => ?_) _
  have : get (normalizer A (q.tdiv p)) (a % q.tdiv p) ≠ 0 := ne_of_gt (normalizer_pos A hA _ hpos a ha)
  unfold normalizer at this ⊢
  simp only [this, if_false]
  split <;> rfl

theorem get_conditioned (A : Dict) (hA : (keys A).Nodup) (m c : Int) :
    get (conditioned A m) c = ∑ a ∈ (keys A).toFinset, get A a * if c % m = 0 then get A (a - c) / get (normalizer A m) (a % m) else 0 := by
  unfold conditioned
  rw [foldl_get _ (fun a c => get A a * if c % m = 0 then get A (a - c) / get (normalizer A m) (a % m) else 0), get_nil, zero_add, list_sum_keys A hA]
  intro C a c
  rw [foldl_get _ (fun b c => if a - b = c then (if c % m = 0 then get A a * get A b / get (normalizer A m) (a % m) else 0) else 0)]
  · rw [list_sum_keys A hA]
    congr 1
    have e : ∀ b, (if a - b = c then (if c % m = 0 then get A a * get A b / get (normalizer A m) (a % m) else 0) else 0)
        = if a - c = b then (if c % m = 0 then get A a * get A b / get (normalizer A m) (a % m) else 0) else 0 := by
      intro b
      by_cases h : a - b = c
      · rw [if_pos h, if_pos (show a - c = b by omega)]
      · rw [if_neg h, if_neg (show ¬ a - c = b by omega)]
    simp only [e]
    rw [Finset.sum_ite_eq]
    by_cases hm : a - c ∈ keys A
    · rw [if_pos (List.mem_toFinset.2 hm)]
      split
      · rw [mul_div_assoc]
      · simp
    · rw [if_neg (by simpa using hm), get_of_not_mem A _ hm]
      simp
  · intro C b c
    by_cases h : (a - b) % m = 0
    · rw [if_pos h, get_bump]
      by_cases h2 : a - b = c
      · rw [if_pos h2, if_pos h2, if_pos (by rw [← h2]; exact h)]
      · rw [if_neg h2, if_neg h2]
    · rw [if_neg h]
      by_cases h2 : a - b = c
      · rw [if_pos h2, if_neg (by rw [← h2]; exact h), add_zero]
      · rw [if_neg h2, add_zero]

theorem nodup_conditioned (A : Dict) (m : Int) : (keys (conditioned A m)).Nodup := by
  unfold conditioned
  refine foldl_nodup _ (fun C a hC => foldl_nodup _ (fun C b hC => ?_) _ _ hC) _ _ (by simp [keys])
  split
  · exact nodup_set _ _ _ hC
  · exact hC

theorem conditioned_law {Ω : Type} [Fintype Ω] (A : Dict) (hA : (keys A).Nodup) (X : Ω → Int) (hX : LawOf (get A) X) (m c : Int) :
    get (conditioned A m) c = congruentDifference X m c := by
  classical
  rw [get_conditioned A hA, sum_eq_mean X A hX (fun a => if c % m = 0 then get A (a - c) / get (normalizer A m) (a % m) else 0)]
  unfold congruentDifference
  congr 1
  refine Finset.sum_congr rfl fun ω _ => ?_
  split
  · rw [hX, get_normalizer A hA, sum_eq_mean X A hX (fun a => if a % m = X ω % m then 1 else 0), ← fraction_sum fun ω' => X ω' % m = X ω % m]
  · rfl

theorem congruentDifference_nonneg {Ω : Type} [Fintype Ω] (X : Ω → Int) (m c : Int) : 0 ≤ congruentDifference X m c := by
  unfold congruentDifference
  refine div_nonneg (Finset.sum_nonneg fun ω _ => ?_) (by positivity)
  split
  · exact div_nonneg (fraction_nonneg _) (fraction_nonneg _)
  · exact le_refl _

/-! ### Tails, mean, variance -/

theorem foldl_add {ι : Type} (f : ι → Rat) (l : List ι) (s : Rat) : l.foldl (fun s i => s + f i) s = s + (l.map f).sum := by
  induction l generalizing s with
  | nil => simp
  | cons a t ih => rw [List.foldl_cons, ih, List.map_cons, List.sum_cons, add_assoc]

theorem max_keys {Ω : Type} [Fintype Ω] (D : Dict) (X : Ω → Int) (hX : LawOf (get D) X) (hpos : ∀ x ∈ keys D, get D x ≠ 0) (ω₀ : Ω)
    (hm : ∀ ω, X ω ≤ X ω₀) : (keys D).max? = some (X ω₀) := by
  rw [List.max?_eq_some_iff]
  refine ⟨mem_keys_of_law X D hX ω₀, fun x hx => ?_⟩
  have h1 := hpos x hx
  rw [hX x] at h1
  by_contra hc
  apply h1
  unfold fraction
  have : count (fun ω => X ω = x) = 0 := by
    classical
    rw [count_eq, Finset.card_eq_zero, Finset.filter_eq_empty_iff]
    intro ω _ he
    have := hm ω
    omega
  rw [this]
  simp

theorem tail_law {Ω : Type} [Fintype Ω] (D : Dict) (X : Ω → Int) (hX : LawOf (get D) X) (ma : Int) (hma : (keys D).max? = some ma) (t : Rat) (ht : 0 < t) :
    tail_probability D t = some (fraction fun ω => t ≤ |X ω| ∧ |X ω| < ma) := by
  classical
  unfold tail_probability
  rw [hma]
  dsimp only
  split
  · rename_i h
    congr 1
    symm
    unfold fraction
    have : count (fun ω => t ≤ ((|X ω| : Int) : Rat) ∧ |X ω| < ma) = 0 := by
      rw [count_eq, Finset.card_eq_zero, Finset.filter_eq_empty_iff]
      rintro ω _ ⟨h1, h2⟩
      have h3 : ((|X ω| : Int) : Rat) < ma := by exact_mod_cast h2
      linarith
    rw [this]
    simp
  · rw [foldl_add, zero_add, List.map_reverse, List.sum_reverse, ← List.sum_toFinset _ (nodup_range _ _)]
    congr 1
    have hc : 1 ≤ ⌈t⌉ := Int.one_le_ceil_iff.2 ht
    have e : ∀ i ∈ (range ⌈t⌉ ma).toFinset, get D i + get D (-i) = (∑ ω, if |X ω| = i then (1 : Rat) else 0) / Fintype.card Ω := by
      intro i hi
      rw [List.mem_toFinset, mem_range] at hi
      rw [hX, hX, fraction_sum, fraction_sum, ← add_div, ← Finset.sum_add_distrib]
      congr 1
      refine Finset.sum_congr rfl fun ω _ => ?_
      by_cases h1 : X ω = i
      · rw [if_pos h1, if_neg (by omega), if_pos (by rw [h1]; exact abs_of_nonneg (by omega)), add_zero]
      · rw [if_neg h1]
        by_cases h2 : X ω = -i
        · rw [if_pos h2, if_pos (by rw [h2, abs_neg]; exact abs_of_nonneg (by omega)), zero_add]
        · rw [if_neg h2, if_neg, add_zero]
          intro h3
          rcases abs_eq (by omega : 0 ≤ i) |>.1 h3 with h | h
          · exact h1 h
          · exact h2 h
    rw [Finset.sum_congr rfl e, fraction_sum, ← Finset.sum_div, Finset.sum_comm]
    congr 1
    refine Finset.sum_congr rfl fun ω _ => ?_
    rw [Finset.sum_ite_eq]
    congr 1
    rw [List.mem_toFinset, mem_range, Int.ceil_le]

theorem distmean_law {Ω : Type} [Fintype Ω] (D : Dict) (hD : (keys D).Nodup) (X : Ω → Int) (hX : LawOf (get D) X) :
    distmean D = (∑ ω, (X ω : Rat)) / Fintype.card Ω := by
  unfold distmean
  rw [foldl_add (fun i : Int => get D i * (i : Rat)), zero_add, list_sum_keys D hD (fun i => get D i * (i : Rat)), sum_eq_mean X D hX]

theorem distvariance_law {Ω : Type} [Fintype Ω] (D : Dict) (hD : (keys D).Nodup) (X : Ω → Int) (hX : LawOf (get D) X) :
    distvariance D = (∑ ω, ((X ω : Rat) - (∑ ω', (X ω' : Rat)) / Fintype.card Ω) ^ 2) / Fintype.card Ω := by
  unfold distvariance
  rw [distmean_law D hD X hX]
  dsimp only
  rw [foldl_add (fun i : Int => get D i * ((i : Rat) - (∑ ω', (X ω' : Rat)) / Fintype.card Ω) ^ 2), zero_add,
    list_sum_keys D hD (fun i => get D i * ((i : Rat) - (∑ ω', (X ω' : Rat)) / Fintype.card Ω) ^ 2), sum_eq_mean X D hX]

/-! ### The centred binomial law -/

theorem foldl_set (f : Int → Rat) (l : List Int) (D : Dict) (x : Int) : get (l.foldl (fun D i => set D i (f i)) D) x = if x ∈ l then f x else get D x := by
  induction l generalizing D with
  | nil => simp
  | cons a t ih =>
    rw [List.foldl_cons, ih, get_set]
    by_cases h1 : x ∈ t
    · simp [h1]
    · by_cases h2 : a = x
      · subst h2
        simp
      · simp [h1, h2, Ne.symm h2]

theorem binomial_choose (n y : Nat) (h : y ≤ n) : binomial n y = n.choose y := by
  unfold binomial fac
  rw [if_neg (by omega), if_neg (by omega), if_neg (by omega)]
  dsimp only
  rw [show ((n : Int) - (y : Int)).toNat = n - y by omega, Int.toNat_natCast, Int.toNat_natCast, Nat.div_div_eq_div_mul, Nat.choose_eq_factorial_div_factorial h]

theorem binomial_law_get (k : Nat) (x : Int) :
    get (build_centered_binomial_law k) x = if -(k : Int) ≤ x ∧ x ≤ k then ((2 * k).choose ((k : Int) + x).toNat : Rat) / 2 ^ (2 * k) else 0 := by
  unfold build_centered_binomial_law
  rw [foldl_set]
  by_cases h : -(k : Int) ≤ x ∧ x ≤ k
  · rw [if_pos ((mem_range _ _ _).2 (by omega)), if_pos h]
    unfold centered_binomial_pdf
    rw [show (2 * (k : Int)) = ((2 * k : Nat) : Int) by push_cast; rfl, show x + (k : Int) = (((k : Int) + x).toNat : Int) by omega,
      binomial_choose _ _ (by omega), Int.toNat_natCast]
  · rw [if_neg (fun hm => h (by have := (mem_range _ _ _).1 hm; omega)), if_neg h, get_nil]

theorem nodup_binomial (k : Int) : (keys (build_centered_binomial_law k)).Nodup := by
  unfold build_centered_binomial_law
  exact foldl_nodup _ (fun C i hC => nodup_set _ _ _ hC) _ _ (by simp [keys])

theorem keys_binomial (k : Nat) : ∀ x ∈ keys (build_centered_binomial_law k), -(k : Int) ≤ x ∧ x ≤ k := by
  unfold build_centered_binomial_law
  refine foldl_keys _ _ _ (fun C x hx hC => ?_) _ (by simp [keys])
  intro y hy
  rw [mem_keys_set] at hy
  rcases hy with hy | rfl
  · exact hC y hy
  · rw [mem_range] at hx
    omega

end Saber.Proba
