import Verif.Model.Proba
import Verif.Spec.Law
import Verif.Proof.Prob
import Mathlib.Tactic.Linarith
import Mathlib.Tactic.Positivity
import Mathlib.Tactic.Ring
import Mathlib.Tactic.FieldSimp
import Mathlib.Logic.Equiv.Fin.Basic
import Mathlib.Algebra.Order.BigOperators.Group.Finset
import Mathlib.Algebra.BigOperators.Field
/-!
# Proofs about the parameter search
-/
namespace Saber.Proba
open Spec Saber.Prob

/-! ### Dictionaries -/

theorem get_set (D : Dict) (x y : Int) (v : Rat) : get (set D x v) y = if x = y then v else get D y := by
  induction D with
  | nil => simp [set, get]
  | cons h t ih =>
    obtain ⟨z, w⟩ := h
    unfold set
    by_cases hz : z = x
    · subst hz
      simp only [if_true, get]
      split <;> rfl
    · simp only [if_neg hz, get, ih]
      by_cases hy : z = y
      · subst hy
        simp [Ne.symm hz]
      · simp [hy]

theorem get_nil (x : Int) : get [] x = 0 := rfl

theorem get_of_not_mem (D : Dict) (x : Int) (h : x ∉ keys D) : get D x = 0 := by
  induction D with
  | nil => rfl
  | cons a t ih =>
    obtain ⟨y, w⟩ := a
    simp only [keys, List.map_cons, List.mem_cons, not_or] at h
    unfold get
    rw [if_neg (Ne.symm h.1)]
    exact ih h.2

theorem keys_set (D : Dict) (x : Int) (v : Rat) : keys (set D x v) = if x ∈ keys D then keys D else keys D ++ [x] := by
  induction D with
  | nil => simp [set, keys]
  | cons h t ih =>
    obtain ⟨z, w⟩ := h
    unfold set
    by_cases hz : z = x
    · subst hz
      simp [keys]
    · simp only [keys] at ih
      simp only [if_neg hz, keys, List.map_cons, ih, List.mem_cons, Ne.symm hz, false_or]
      by_cases hx : x ∈ List.map Prod.fst t
      · simp [hx]
      · simp [hx]

theorem mem_keys_set (D : Dict) (x y : Int) (v : Rat) : y ∈ keys (set D x v) ↔ y ∈ keys D ∨ y = x := by
  rw [keys_set]
  split
  · constructor
    · exact Or.inl
    · rintro (h | rfl)
      · exact h
      · assumption
  · simp

theorem nodup_set (D : Dict) (x : Int) (v : Rat) (h : (keys D).Nodup) : (keys (set D x v)).Nodup := by
  rw [keys_set]
  split
  · exact h
  · rename_i hx
    rw [List.nodup_append]
    exact ⟨h, by simp, by rintro a ha b hb rfl; simp at hb; exact hx (hb ▸ ha)⟩

/-- Sum of all values. -/
def total (D : Dict) : Rat := ∑ x ∈ (keys D).toFinset, get D x

theorem total_add (D : Dict) (x : Int) (v : Rat) : total (set D x (get D x + v)) = total D + v := by
  unfold total
  have e : (keys (set D x (get D x + v))).toFinset = insert x (keys D).toFinset := by
    ext y
    simp only [List.mem_toFinset, mem_keys_set, Finset.mem_insert]
    tauto
  rw [e]
  have h1 : ∀ y, get (set D x (get D x + v)) y = get D y + if x = y then v else 0 := by
    intro y
    rw [get_set]
    split
    · subst_vars; rfl
    · simp
  simp only [h1]
  rw [Finset.sum_add_distrib, Finset.sum_ite_eq, if_pos (Finset.mem_insert_self _ _)]
  congr 1
  by_cases hx : x ∈ (keys D).toFinset
  · rw [Finset.insert_eq_of_mem hx]
  · rw [Finset.sum_insert hx, get_of_not_mem D x (by simpa using hx), zero_add]

/-- Values after a loop in which every step adds something. -/
theorem foldl_get {ι : Type} (step : Dict → ι → Dict) (f : ι → Int → Rat) (hs : ∀ C i c, get (step C i) c = get C c + f i c) (l : List ι) (C : Dict)
    (c : Int) : get (l.foldl step C) c = get C c + (l.map fun i => f i c).sum := by
  induction l generalizing C with
  | nil => simp
  | cons a t ih => rw [List.foldl_cons, ih, hs, List.map_cons, List.sum_cons, add_assoc]

theorem foldl_nodup {ι : Type} (step : Dict → ι → Dict) (hs : ∀ C i, (keys C).Nodup → (keys (step C i)).Nodup) (l : List ι) (C : Dict)
    (h : (keys C).Nodup) : (keys (l.foldl step C)).Nodup := by
  induction l generalizing C with
  | nil => exact h
  | cons a t ih => exact ih _ (hs C a h)

theorem foldl_total {ι : Type} (step : Dict → ι → Dict) (f : ι → Rat) (hs : ∀ C i, total (step C i) = total C + f i) (l : List ι) (C : Dict) :
    total (l.foldl step C) = total C + (l.map f).sum := by
  induction l generalizing C with
  | nil => simp
  | cons a t ih => rw [List.foldl_cons, ih, hs, List.map_cons, List.sum_cons, add_assoc]

theorem foldl_keys {ι : Type} (p : Int → Prop) (step : Dict → ι → Dict) (l : List ι)
    (hs : ∀ C, ∀ i ∈ l, (∀ x ∈ keys C, p x) → ∀ x ∈ keys (step C i), p x) (C : Dict) (h : ∀ x ∈ keys C, p x) : ∀ x ∈ keys (l.foldl step C), p x := by
  induction l generalizing C with
  | nil => exact h
  | cons a t ih => exact ih (fun C i hi => hs C i (List.mem_cons_of_mem _ hi)) _ (hs C a List.mem_cons_self h)

theorem get_bump (C : Dict) (x : Int) (v : Rat) (c : Int) : get (set C x (get C x + v)) c = get C c + if x = c then v else 0 := by
  rw [get_set]
  split
  · subst_vars; rfl
  · simp

/-! ### The two double loops -/

/-- The common form of `law_convolution` and `law_product`. -/
def combine (op : Int → Int → Int) (A B : Dict) : Dict :=
  (keys A).foldl (fun C a => (keys B).foldl (fun C b => set C (op a b) (get C (op a b) + get A a * get B b)) C) []

theorem law_convolution_eq (A B : Dict) : law_convolution A B = combine (· + ·) A B := rfl

theorem law_product_eq (A B : Dict) : law_product A B = combine (· * ·) A B := rfl

theorem list_sum_keys (A : Dict) (hA : (keys A).Nodup) (f : Int → Rat) : ((keys A).map f).sum = ∑ a ∈ (keys A).toFinset, f a :=
  (List.sum_toFinset f hA).symm

theorem get_combine (op : Int → Int → Int) (A B : Dict) (hA : (keys A).Nodup) (hB : (keys B).Nodup) (c : Int) :
    get (combine op A B) c = ∑ a ∈ (keys A).toFinset, get A a * ∑ b ∈ (keys B).toFinset, get B b * if op a b = c then 1 else 0 := by
  unfold combine
  rw [foldl_get _ (fun a c => get A a * ∑ b ∈ (keys B).toFinset, get B b * if op a b = c then 1 else 0), get_nil, zero_add, list_sum_keys A hA]
  intro C a c
  rw [foldl_get _ (fun b c => if op a b = c then get A a * get B b else 0), list_sum_keys B hB, Finset.mul_sum]
  · congr 1
    refine Finset.sum_congr rfl fun b _ => ?_
    split <;> simp
  · intro C b c
    exact get_bump C _ _ c

theorem nodup_combine (op : Int → Int → Int) (A B : Dict) : (keys (combine op A B)).Nodup := by
  unfold combine
  exact foldl_nodup _ (fun C a h => foldl_nodup _ (fun C b h => nodup_set _ _ _ h) _ _ h) _ _ (by simp [keys])

theorem total_combine (op : Int → Int → Int) (A B : Dict) (hA : (keys A).Nodup) (hB : (keys B).Nodup) :
    total (combine op A B) = total A * total B := by
  unfold combine
  rw [foldl_total _ (fun a => get A a * total B)]
  · rw [list_sum_keys A hA, ← Finset.sum_mul]
    simp [total, keys]
  · intro C a
    rw [foldl_total _ (fun b => get A a * get B b)]
    · rw [list_sum_keys B hB, ← Finset.mul_sum]
      rfl
    · intro C b
      exact total_add C _ _

theorem keys_combine (op : Int → Int → Int) (A B : Dict) (p : Int → Prop) (h : ∀ a ∈ keys A, ∀ b ∈ keys B, p (op a b)) :
    ∀ x ∈ keys (combine op A B), p x := by
  unfold combine
  refine foldl_keys p _ _ (fun C a ha hC => ?_) _ (by simp [keys])
  refine foldl_keys p _ _ (fun C b hb hC => ?_) _ hC
  intro x hx
  rw [mem_keys_set] at hx
  rcases hx with hx | rfl
  · exact hC x hx
  · exact h a ha b hb

/-! ### Fractions as sums -/

theorem fraction_sum {Ω : Type} [Fintype Ω] (p : Ω → Prop) [DecidablePred p] : fraction p = (∑ ω, if p ω then (1 : Rat) else 0) / Fintype.card Ω := by
  unfold fraction
  rw [count_eq, Finset.card_filter]
  push_cast
  rfl

theorem fraction_nonneg {Ω : Type} [Fintype Ω] (p : Ω → Prop) : 0 ≤ fraction p := by
  unfold fraction
  positivity

theorem fraction_congr {Ω : Type} [Fintype Ω] {p q : Ω → Prop} (h : ∀ ω, p ω ↔ q ω) : fraction p = fraction q := by
  rw [show p = q from funext fun ω => propext (h ω)]

theorem fraction_equiv {Ω Ω' : Type} [Fintype Ω] [Fintype Ω'] (e : Ω ≃ Ω') (p : Ω' → Prop) : fraction (fun ω => p (e ω)) = fraction p := by
  unfold fraction
  rw [count_equiv, Fintype.card_congr e]

/-- Mean of a function of a random variable whose law is bounded below by a dictionary. -/
theorem sum_le_mean {Ω : Type} [Fintype Ω] (X : Ω → Int) (D : Dict) (h : ∀ x, get D x ≤ fraction fun ω => X ω = x) (g : Int → Rat)
    (hg : ∀ x, 0 ≤ g x) : ∑ a ∈ (keys D).toFinset, get D a * g a ≤ (∑ ω, g (X ω)) / Fintype.card Ω := by
  classical
  calc ∑ a ∈ (keys D).toFinset, get D a * g a
      ≤ ∑ a ∈ (keys D).toFinset, (fraction fun ω => X ω = a) * g a := Finset.sum_le_sum fun a _ => mul_le_mul_of_nonneg_right (h a) (hg a)
    _ = (∑ ω, ∑ a ∈ (keys D).toFinset, if X ω = a then g a else 0) / Fintype.card Ω := by
      rw [Finset.sum_comm, Finset.sum_div]
      refine Finset.sum_congr rfl fun a _ => ?_
      rw [fraction_sum, div_mul_eq_mul_div, Finset.sum_mul]
      congr 1
      refine Finset.sum_congr rfl fun ω _ => ?_
      split <;> simp
    _ ≤ _ := by
      refine div_le_div_of_nonneg_right (Finset.sum_le_sum fun ω _ => ?_) (by positivity)
      rw [Finset.sum_ite_eq]
      split
      · exact le_refl _
      · exact hg _

theorem mem_keys_of_law {Ω : Type} [Fintype Ω] (X : Ω → Int) (D : Dict) (h : LawOf (get D) X) (ω : Ω) : X ω ∈ keys D := by
  by_contra hc
  have h1 := h (X ω)
  rw [get_of_not_mem D _ hc] at h1
  unfold fraction at h1
  haveI : Nonempty Ω := ⟨ω⟩
  have hn : (0 : Rat) < Fintype.card Ω := by exact_mod_cast Fintype.card_pos
  have hc : (0 : Rat) < count fun ω' => X ω' = X ω := by
    classical
    rw [count_eq]
    exact_mod_cast Finset.card_pos.2 ⟨ω, by simp⟩
  have := div_pos hc hn
  linarith

/-- Mean of a function of a random variable whose law is a dictionary. -/
theorem sum_eq_mean {Ω : Type} [Fintype Ω] (X : Ω → Int) (D : Dict) (h : LawOf (get D) X) (g : Int → Rat) :
    ∑ a ∈ (keys D).toFinset, get D a * g a = (∑ ω, g (X ω)) / Fintype.card Ω := by
  classical
  calc ∑ a ∈ (keys D).toFinset, get D a * g a
      = ∑ a ∈ (keys D).toFinset, (fraction fun ω => X ω = a) * g a := Finset.sum_congr rfl fun a _ => by rw [h a]
    _ = (∑ ω, ∑ a ∈ (keys D).toFinset, if X ω = a then g a else 0) / Fintype.card Ω := by
      rw [Finset.sum_comm, Finset.sum_div]
      refine Finset.sum_congr rfl fun a _ => ?_
      rw [fraction_sum, div_mul_eq_mul_div, Finset.sum_mul]
      congr 1
      refine Finset.sum_congr rfl fun ω _ => ?_
      split <;> simp
    _ = _ := by
      congr 1
      refine Finset.sum_congr rfl fun ω _ => ?_
      rw [Finset.sum_ite_eq, if_pos]
      rw [List.mem_toFinset]
      exact mem_keys_of_law X D h ω

theorem fraction_prod {Ω Ω' : Type} [Fintype Ω] [Fintype Ω'] (p : Ω → Ω' → Prop) :
    fraction (fun w : Ω × Ω' => p w.1 w.2) = (∑ ω, fraction (p ω)) / Fintype.card Ω := by
  classical
  simp only [fraction_sum]
  rw [Fintype.sum_prod_type, Fintype.card_prod, ← Finset.sum_div, div_div]
  push_cast
  rw [mul_comm (Fintype.card Ω' : Rat)]

theorem combine_law {Ω Ω' : Type} [Fintype Ω] [Fintype Ω'] (op : Int → Int → Int) (A B : Dict) (hA : (keys A).Nodup) (hB : (keys B).Nodup) (X : Ω → Int)
    (Y : Ω' → Int) (hX : LawOf (get A) X) (hY : LawOf (get B) Y) : LawOf (get (combine op A B)) fun w : Ω × Ω' => op (X w.1) (Y w.2) := by
  classical
  intro c
  rw [get_combine op A B hA hB, sum_eq_mean X A hX, fraction_prod fun ω ω' => op (X ω) (Y ω') = c]
  congr 1
  refine Finset.sum_congr rfl fun ω _ => ?_
  rw [sum_eq_mean Y B hY (fun b => if op (X ω) b = c then 1 else 0), fraction_sum]

theorem combine_le {Ω Ω' : Type} [Fintype Ω] [Fintype Ω'] (op : Int → Int → Int) (A B : Dict) (hA : (keys A).Nodup) (hB : (keys B).Nodup) (X : Ω → Int)
    (Y : Ω' → Int) (hA0 : ∀ x, 0 ≤ get A x) (hB0 : ∀ x, 0 ≤ get B x) (hX : ∀ x, get A x ≤ fraction fun ω => X ω = x)
    (hY : ∀ x, get B x ≤ fraction fun ω => Y ω = x) (c : Int) :
    0 ≤ get (combine op A B) c ∧ get (combine op A B) c ≤ fraction fun w : Ω × Ω' => op (X w.1) (Y w.2) = c := by
  classical
  rw [get_combine op A B hA hB]
  have h0 : ∀ a, 0 ≤ ∑ b ∈ (keys B).toFinset, get B b * if op a b = c then 1 else 0 := by
    intro a
    refine Finset.sum_nonneg fun b _ => mul_nonneg (hB0 b) ?_
    split <;> simp
  refine ⟨Finset.sum_nonneg fun a _ => mul_nonneg (hA0 a) (h0 a), ?_⟩
  refine le_trans (sum_le_mean X A hX _ h0) ?_
  rw [fraction_prod fun ω ω' => op (X ω) (Y ω') = c]
  refine div_le_div_of_nonneg_right (Finset.sum_le_sum fun ω _ => ?_) (by positivity)
  refine le_trans (sum_le_mean Y B hY (fun b => if op (X ω) b = c then 1 else 0) (fun b => by split <;> simp)) ?_
  rw [fraction_sum]

/-! ### Removing small values -/

theorem clean_foldl (A : Dict) (B : Dict) (h : (keys A).Nodup) (hd : ∀ x ∈ keys A, x ∉ keys B) :
    A.foldl (fun B xy => if 1 / 2 ^ 300 < xy.2 then set B xy.1 xy.2 else B) B = B ++ A.filter fun xy => 1 / 2 ^ 300 < xy.2 := by
  induction A generalizing B with
  | nil => simp
  | cons a t ih =>
    obtain ⟨x, v⟩ := a
    simp only [keys, List.map_cons, List.nodup_cons] at h
    have hx : x ∉ keys B := hd x (by simp [keys])
    rw [List.foldl_cons]
    have hset : set B x v = B ++ [(x, v)] := by
      clear ih hd
      induction B with
      | nil => rfl
      | cons b s ihs =>
        obtain ⟨y, w⟩ := b
        simp only [keys, List.map_cons, List.mem_cons, not_or] at hx
        unfold set
        rw [if_neg (Ne.symm hx.1), ihs hx.2]
        rfl
    by_cases hv : (1 / 2 ^ 300 : Rat) < v
    · rw [if_pos hv, hset, ih _ h.2, List.filter_cons_of_pos (by simpa using hv)]
      · simp
      · intro y hy
        simp only [keys, List.map_append, List.map_cons, List.map_nil, List.mem_append, List.mem_singleton, not_or]
        refine ⟨hd y (by simp only [keys, List.map_cons, List.mem_cons]; exact Or.inr hy), ?_⟩
        rintro rfl
        exact h.1 hy
    · rw [if_neg hv, List.filter_cons_of_neg (by simpa using hv)]
      refine ih _ h.2 fun y hy => hd y (by simp only [keys, List.map_cons, List.mem_cons]; exact Or.inr hy)

theorem clean_eq (A : Dict) (h : (keys A).Nodup) : clean_dist A = A.filter fun xy => 1 / 2 ^ 300 < xy.2 := by
  unfold clean_dist
  rw [clean_foldl A [] h (by simp [keys]), List.nil_append]

theorem keys_filter (A : Dict) (p : Int × Rat → Bool) : (keys (A.filter p)).Sublist (keys A) :=
  List.Sublist.map _ List.filter_sublist

theorem get_filter (A : Dict) (h : (keys A).Nodup) (x : Int) :
    get (A.filter fun xy => 1 / 2 ^ 300 < xy.2) x = if 1 / 2 ^ 300 < get A x then get A x else 0 := by
  induction A with
  | nil => simp [get]
  | cons a t ih =>
    obtain ⟨y, v⟩ := a
    simp only [keys, List.map_cons, List.nodup_cons] at h
    have iht := ih h.2
    by_cases hv : (1 / 2 ^ 300 : Rat) < v
    · rw [List.filter_cons_of_pos (by simpa using hv)]
      unfold get
      by_cases hy : y = x
      · subst hy
        simp only [if_true]
        rw [if_pos hv]
      · simp only [if_neg hy]
        exact iht
    · rw [List.filter_cons_of_neg (by simpa using hv), iht]
      conv_rhs => unfold get
      by_cases hy : y = x
      · subst hy
        rw [get_of_not_mem t y h.1]
        simp only [if_true, if_neg hv]
        simp
      · simp only [if_neg hy]

theorem get_clean (A : Dict) (h : (keys A).Nodup) (x : Int) : get (clean_dist A) x = if 1 / 2 ^ 300 < get A x then get A x else 0 := by
  rw [clean_eq A h, get_filter A h]

theorem nodup_clean (A : Dict) (h : (keys A).Nodup) : (keys (clean_dist A)).Nodup := by
  rw [clean_eq A h]
  exact h.sublist (keys_filter A _)

theorem keys_clean (A : Dict) (h : (keys A).Nodup) : ∀ x ∈ keys (clean_dist A), x ∈ keys A := by
  rw [clean_eq A h]
  exact fun x hx => (keys_filter A _).subset hx

theorem total_clean (A : Dict) (h : (keys A).Nodup) : total A - (keys A).length / 2 ^ 300 ≤ total (clean_dist A) := by
  have e : total (clean_dist A) = ∑ x ∈ (keys A).toFinset, get (clean_dist A) x := by
    unfold total
    refine Finset.sum_subset (fun x hx => ?_) fun x _ hx => ?_
    · rw [List.mem_toFinset] at hx ⊢
      exact keys_clean A h x hx
    · exact get_of_not_mem _ _ (by simpa using hx)
  rw [e]
  have e2 : ((keys A).length : Rat) / 2 ^ 300 = ∑ x ∈ (keys A).toFinset, (1 / 2 ^ 300 : Rat) := by
    rw [Finset.sum_const, List.toFinset_card_of_nodup h, nsmul_eq_mul, mul_one_div]
  rw [e2]
  unfold total
  rw [← Finset.sum_sub_distrib]
  refine Finset.sum_le_sum fun x _ => ?_
  rw [get_clean A h]
  split
  · have : (0 : Rat) < 1 / 2 ^ 300 := by positivity
    linarith
  · linarith

theorem length_keys (A : Dict) (h : (keys A).Nodup) (b : Nat) (hb : ∀ x ∈ keys A, -(b : Int) ≤ x ∧ x ≤ b) : (keys A).length ≤ 2 * b + 1 := by
  rw [← List.toFinset_card_of_nodup h]
  have : (keys A).toFinset ⊆ Finset.Icc (-(b : Int)) b := by
    intro x hx
    rw [List.mem_toFinset] at hx
    exact Finset.mem_Icc.2 (hb x hx)
  refine le_trans (Finset.card_le_card this) ?_
  rw [Int.card_Icc]
  omega

/-! ### The repeated convolution -/

/-- `D` lies below the law of `X`, has keys of absolute value at most `b` and at most the mass `e` is missing. -/
structure Below {Ω : Type} [Fintype Ω] (D : Dict) (X : Ω → Int) (b : Nat) (e : Rat) : Prop where
  nodup : (keys D).Nodup
  range : ∀ x ∈ keys D, -(b : Int) ≤ x ∧ x ≤ b
  nonneg : ∀ x, 0 ≤ get D x
  le : ∀ x, get D x ≤ fraction fun ω => X ω = x
  mass : 1 - e ≤ total D

theorem Below.conv {Ω Ω' : Type} [Fintype Ω] [Fintype Ω'] {A B : Dict} {X : Ω → Int} {Y : Ω' → Int} {a b : Nat} {e e' : Rat} (hA : Below A X a e)
    (hB : Below B Y b e') (h0 : 0 ≤ e) (h0' : 0 ≤ e') : Below (law_convolution A B) (fun w : Ω × Ω' => X w.1 + Y w.2) (a + b) (e + e') := by
  have hc := combine_le (· + ·) A B hA.nodup hB.nodup X Y hA.nonneg hB.nonneg hA.le hB.le
  refine ⟨nodup_combine _ A B, ?_, fun x => (hc x).1, fun x => (hc x).2, ?_⟩
  · refine keys_combine (· + ·) A B _ fun x hx y hy => ?_
    have := hA.range x hx
    have := hB.range y hy
    push_cast
    omega
  · rw [law_convolution_eq, total_combine _ A B hA.nodup hB.nodup]
    have hm := hA.mass
    have hm' := hB.mass
    have hB0 : 0 ≤ total B := Finset.sum_nonneg fun x _ => hB.nonneg x
    have hA0 : 0 ≤ total A := Finset.sum_nonneg fun x _ => hA.nonneg x
    have hp := mul_nonneg hA0 hB0
    by_cases he : e' ≤ 1
    · by_cases he2 : e ≤ 1
      · have := mul_le_mul hm hm' (by linarith) (by linarith)
        nlinarith
      · push Not at he2
        linarith
    · push Not at he
      linarith

theorem Below.clean {Ω : Type} [Fintype Ω] {A : Dict} {X : Ω → Int} {a : Nat} {e : Rat} (hA : Below A X a e) :
    Below (clean_dist A) X a (e + (2 * a + 1) / 2 ^ 300) := by
  refine ⟨nodup_clean A hA.nodup, fun x hx => hA.range x (keys_clean A hA.nodup x hx), fun x => ?_, fun x => ?_, ?_⟩
  · rw [get_clean A hA.nodup]
    split
    · exact hA.nonneg x
    · exact le_refl _
  · rw [get_clean A hA.nodup]
    split
    · exact hA.le x
    · exact fraction_nonneg _
  · have h1 := total_clean A hA.nodup
    have h2 : ((keys A).length : Rat) / 2 ^ 300 ≤ (2 * a + 1) / 2 ^ 300 := by
      refine div_le_div_of_nonneg_right ?_ (by positivity)
      have := length_keys A hA.nodup a hA.range
      exact_mod_cast this
    have := hA.mass
    linarith

theorem Below.mono {Ω Ω' : Type} [Fintype Ω] [Fintype Ω'] {A : Dict} {X : Ω → Int} {a a' : Nat} {e e' : Rat} (hA : Below A X a e) (f : Ω' ≃ Ω)
    (Y : Ω' → Int) (hY : ∀ ω, Y ω = X (f ω)) (ha : a ≤ a') (he : e ≤ e') : Below A Y a' e' := by
  refine ⟨hA.nodup, fun x hx => ?_, hA.nonneg, fun x => ?_, ?_⟩
  · have := hA.range x hx
    omega
  · rw [fraction_congr (q := fun ω' => X (f ω') = x) (fun ω => by rw [hY])]
    rw [fraction_equiv f fun ω => X ω = x]
    exact hA.le x
  · have := hA.mass
    linarith

theorem copies_append {Ω : Type} (X : Ω → Int) (m n : Nat) (a : Fin m → Ω) (b : Fin n → Ω) : copies X (m + n) (Fin.append a b) = copies X m a + copies X n b := by
  unfold copies
  rw [Fin.sum_univ_add]
  simp

theorem bin_lt (i : Nat) (h : i < 2) : bin i = [i == 1] := by
  rw [bin, if_pos h]

theorem bin_ge (i : Nat) (h : ¬ i < 2) : bin i = bin (i / 2) ++ [i % 2 == 1] := by
  rw [bin, if_neg h]

/-- One digit of the loop. -/
def digit (A D : Dict) (ch : Bool) : Dict :=
  let D := law_convolution D D
  let D := clean_dist D
  if ch then
    let D := law_convolution D A
    clean_dist D
  else D

theorem iter_eq (A : Dict) (i : Nat) : iter_law_convolution A i = (bin i).foldl (digit A) [(0, 1)] := rfl

theorem digit_below {Ω : Type} [Fintype Ω] {A D : Dict} {X : Ω → Int} {b m N : Nat} {e : Rat} (hA : Below A X b 0) (hD : Below D (copies X m) (m * b) e)
    (he : 0 ≤ e) (ch : Bool) (hN : 2 * m + ch.toNat ≤ N) :
    Below (digit A D ch) (copies X (2 * m + ch.toNat)) ((2 * m + ch.toNat) * b) (2 * e + (1 + ch.toNat) * ((2 * (N * b : Nat) + 1) / 2 ^ 300)) := by
  have hle : ∀ j : Nat, j ≤ N → ((2 * ((j * b : Nat) : Rat) + 1) / 2 ^ 300 : Rat) ≤ (2 * (N * b : Nat) + 1) / 2 ^ 300 := by
    intro j hj
    refine div_le_div_of_nonneg_right ?_ (by positivity)
    have : ((j * b : Nat) : Rat) ≤ (N * b : Nat) := by exact_mod_cast Nat.mul_le_mul_right b hj
    linarith
  have h1 : Below (clean_dist (law_convolution D D)) (copies X (m + m)) ((m + m) * b) (e + e + (2 * ((m + m) * b : Nat) + 1) / 2 ^ 300) := by
    have hc : Below (law_convolution D D) (copies X (m + m)) ((m + m) * b) (e + e) := by
      refine (hD.conv hD he he).mono (Fin.appendEquiv m m).symm _ (fun ω => ?_) (by rw [Nat.add_mul]) (le_refl _)
      obtain ⟨w, rfl⟩ := (Fin.appendEquiv m m).surjective ω
      rw [Equiv.symm_apply_apply]
      exact copies_append X m m w.1 w.2
    exact hc.clean
  unfold digit
  cases ch with
  | false =>
    simp only [Bool.false_eq_true, if_false, Bool.toNat_false, Nat.add_zero] at hN ⊢
    have h2 : (Fin (2 * m) → Ω) ≃ (Fin (m + m) → Ω) := Equiv.arrowCongr (finCongr (by omega)) (Equiv.refl Ω)
    rw [show 2 * m = m + m by omega] at hN ⊢
    refine h1.mono (Equiv.refl _) _ (fun _ => rfl) (le_refl _) ?_
    have := hle (m + m) hN
    push_cast at this ⊢
    linarith
  | true =>
    simp only [if_true, Bool.toNat_true] at hN ⊢
    rw [show 2 * m = m + m by omega] at hN ⊢
    have hpos : (0 : Rat) ≤ (2 * ((m + m) * b : Nat) + 1) / 2 ^ 300 := by positivity
    have h2 : Below (law_convolution (clean_dist (law_convolution D D)) A) (copies X (m + m + 1)) ((m + m + 1) * b)
        (e + e + (2 * ((m + m) * b : Nat) + 1) / 2 ^ 300 + 0) := by
      refine (h1.conv hA (by linarith) (le_refl _)).mono
        ((Fin.appendEquiv (m + m) 1).symm.trans (Equiv.prodCongr (Equiv.refl _) (Equiv.funUnique (Fin 1) Ω))) _ (fun ω => ?_) (by nlinarith) (le_refl _)
      obtain ⟨w, rfl⟩ := (Fin.appendEquiv (m + m) 1).surjective ω
      rw [Equiv.trans_apply, Equiv.symm_apply_apply]
      refine (copies_append X (m + m) 1 w.1 w.2).trans ?_
      congr 1
      unfold copies
      simp
    refine h2.clean.mono (Equiv.refl _) _ (fun _ => rfl) (le_refl _) ?_
    have := hle (m + m) (by omega)
    have := hle (m + m + 1) hN
    push_cast at *
    linarith

theorem below_start {Ω : Type} [Fintype Ω] (X : Ω → Int) (b : Nat) : Below [(0, 1)] (copies X 0) (0 * b) 0 := by
  refine ⟨by simp [keys], by simp [keys], fun x => ?_, fun x => ?_, by simp [total, keys, get]⟩
  · simp only [get]
    split <;> simp
  · simp only [get]
    split
    · subst_vars
      unfold fraction copies
      rw [count_eq]
      simp
    · exact fraction_nonneg _

theorem iter_below {Ω : Type} [Fintype Ω] {A : Dict} {X : Ω → Int} {b N : Nat} (hA : Below A X b 0) (n : Nat) (h1 : 1 ≤ n) (hN : n ≤ N) :
    Below (iter_law_convolution A n) (copies X n) (n * b) ((4 * n - 2) * ((2 * (N * b : Nat) + 1) / 2 ^ 300)) := by
  induction n using Nat.strong_induction_on with
  | _ n ih =>
    by_cases h : n < 2
    · have : n = 1 := by omega
      subst this
      rw [iter_eq, bin_lt 1 h]
      have := digit_below hA (below_start X b) (le_refl _) true (N := N) (by simpa using hN)
      refine this.mono (Equiv.refl _) _ (fun _ => rfl) (by simp) ?_
      simp only [Bool.toNat_true]
      push_cast
      linarith
    · rw [iter_eq, bin_ge n h, List.foldl_append, ← iter_eq]
      have hs := ih (n / 2) (by omega) (by omega) (by omega)
      have h2 : 2 * (n / 2) + (n % 2 == 1).toNat = n := by
        rcases Nat.mod_two_eq_zero_or_one n with h | h
        · rw [h]
          simp only [Nat.zero_ne_one, beq_iff_eq, Nat.reduceBEq, Bool.toNat_false]
          omega
        · rw [h]
          simp only [beq_self_eq_true, Bool.toNat_true]
          omega
      have hge : (1 : Rat) ≤ ((n / 2 : Nat) : Rat) := by
        have : 1 ≤ n / 2 := by omega
        exact_mod_cast this
      have hpos : (0 : Rat) ≤ (2 * (N * b : Nat) + 1) / 2 ^ 300 := by positivity
      have := digit_below hA hs (mul_nonneg (by linarith) hpos) (n % 2 == 1) (N := N) (by rw [h2]; exact hN)
      rw [h2] at this
      refine this.mono (Equiv.refl _) _ (fun _ => rfl) (le_refl _) ?_
      have h3 : (2 * ((n / 2 : Nat) : Rat) + ((n % 2 == 1).toNat : Rat)) = n := by exact_mod_cast h2
      have h4 : (0 : Rat) ≤ ((n % 2 == 1).toNat : Rat) := by positivity
      rw [← h3]
      have h5 : ((n % 2 == 1).toNat : Rat) ≤ 1 := by
        cases (n % 2 == 1) <;> simp
      nlinarith

theorem below_of_law {Ω : Type} [Fintype Ω] [Nonempty Ω] {A : Dict} {X : Ω → Int} {b : Nat} (hn : (keys A).Nodup) (hb : ∀ x ∈ keys A, -(b : Int) ≤ x ∧ x ≤ b)
    (hX : LawOf (get A) X) : Below A X b 0 := by
  refine ⟨hn, hb, fun x => ?_, fun x => le_of_eq (hX x), ?_⟩
  · rw [hX x]
    exact fraction_nonneg _
  · have := sum_eq_mean X A hX fun _ => 1
    unfold total
    simp only [mul_one, Finset.sum_const, Finset.card_univ, nsmul_eq_mul] at this
    rw [this, div_self (by exact_mod_cast Fintype.card_ne_zero)]
    norm_num

theorem iter_all {Ω : Type} [Fintype Ω] {A : Dict} {X : Ω → Int} {b : Nat} (hA : Below A X b 0) (n : Nat) :
    Below (iter_law_convolution A n) (copies X n) (n * b) ((4 * n + 1) * ((2 * (n * b : Nat) + 1) / 2 ^ 300)) := by
  have hpos : (0 : Rat) ≤ (2 * (n * b : Nat) + 1) / 2 ^ 300 := by positivity
  by_cases h : n = 0
  · subst h
    rw [iter_eq, bin_lt 0 (by omega)]
    have := digit_below hA (below_start X b) (le_refl _) false (N := 0) (by simp)
    refine this.mono (Equiv.refl _) _ (fun _ => rfl) (by simp) ?_
    simp
  · refine (iter_below hA n (by omega) (le_refl n)).mono (Equiv.refl _) _ (fun _ => rfl) (le_refl _) ?_
    nlinarith

end Saber.Proba
