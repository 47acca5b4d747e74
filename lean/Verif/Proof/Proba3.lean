import Verif.Proof.Proba2
import Mathlib.Logic.Equiv.Fin.Basic
/-!
# Proofs about the parameter search: the values of the error law, and the search
-/
namespace Saber.Proba
open Spec Saber.Prob

/-! ### The values of the law of the rounding error -/

theorem fraction_fin_unique (n : Nat) (p : Fin n → Prop) (a : Fin n) (h : ∀ x, p x ↔ x = a) : fraction p = 1 / n := by
  classical
  rw [fraction_congr h]
  unfold fraction
  rw [count_eq, Finset.filter_eq', if_pos (Finset.mem_univ _), Finset.card_singleton, Fintype.card_fin]
  simp

theorem fraction_false {Ω : Type} [Fintype Ω] (p : Ω → Prop) (h : ∀ x, ¬ p x) : fraction p = 0 := by
  classical
  unfold fraction
  rw [count_eq, Finset.filter_eq_empty_iff.2 fun x _ => h x]
  simp

theorem nearestError_split (h r : Nat) (w : Fin r × Fin (2 * h)) :
    nearestError h (w.2.val + 2 * h * w.1.val) =
      if w.2.val < h then (w.2.val : Int) else if h < w.2.val then (w.2.val : Int) - (2 * h : Nat) else if w.1.val % 2 = 0 then (h : Int) else -(h : Int) := by
  have hw := w.2.isLt
  unfold nearestError
  rw [Nat.add_mul_mod_self_left, Nat.mod_eq_of_lt hw, Nat.add_mul_div_left _ _ (by omega), Nat.div_eq_of_lt hw, Nat.zero_add]

theorem count_even (j : Nat) : (∑ k : Fin (2 * j), if k.val % 2 = 0 then (1 : Rat) else 0) = j ∧ (∑ k : Fin (2 * j), if k.val % 2 = 0 then (0 : Rat) else 1) = j := by
  rw [Fin.sum_univ_eq_sum_range (fun k => if k % 2 = 0 then (1 : Rat) else 0), Fin.sum_univ_eq_sum_range (fun k => if k % 2 = 0 then (0 : Rat) else 1)]
  induction j with
  | zero => simp
  | succ j ih =>
    rw [show 2 * (j + 1) = 2 * j + 1 + 1 by ring]
    simp only [Finset.sum_range_succ]
    rw [ih.1, ih.2, show (2 * j) % 2 = 0 by omega, show (2 * j + 1) % 2 = 1 by omega]
    simp

/-- For an even number of classes the error is uniform inside of the interval, and the two ends share the probability of one value. -/
theorem nearest_law (h j : Nat) (hh : 1 ≤ h) (hj : 1 ≤ j) (d : Int) :
    fraction (fun x : Fin (2 * h * (2 * j)) => nearestError h x = d)
      = if |d| < h then (1 : Rat) / (2 * h) else if |d| = h then (1 : Rat) / (4 * h) else 0 := by
  classical
  have hcard : ((2 * j : Nat) : Rat) ≠ 0 := by
    have : 2 * j ≠ 0 := by omega
    exact_mod_cast this
  have e : fraction (fun x : Fin (2 * h * (2 * j)) => nearestError h x = d)
      = fraction (fun w : Fin (2 * j) × Fin (2 * h) => nearestError h (w.2.val + 2 * h * w.1.val) = d) := by
    rw [← fraction_equiv (finProdFinEquiv.trans (finCongr (Nat.mul_comm (2 * j) (2 * h)))) fun x => nearestError h x = d]
    rfl
  rw [e]
  simp only [nearestError_split]
  rw [fraction_prod fun (k : Fin (2 * j)) (s : Fin (2 * h)) =>
    (if s.val < h then (s.val : Int) else if h < s.val then (s.val : Int) - (2 * h : Nat) else if k.val % 2 = 0 then (h : Int) else -(h : Int)) = d]
  rw [Fintype.card_fin]
  by_cases h1 : |d| < h
  · rw [if_pos h1]
    rw [abs_lt] at h1
    have hv : ∀ k : Fin (2 * j), fraction (fun s : Fin (2 * h) =>
        (if s.val < h then (s.val : Int) else if h < s.val then (s.val : Int) - (2 * h : Nat) else if k.val % 2 = 0 then (h : Int) else -(h : Int)) = d) = 1 / (2 * h) := by
      intro k
      by_cases hd : 0 ≤ d
      · rw [fraction_fin_unique (2 * h) _ ⟨d.toNat, by omega⟩]
        · push_cast; ring
        · intro s
          have hs := s.isLt
          rw [Fin.ext_iff]
          dsimp only
          split
          · omega
          · split
            · omega
            · split <;> omega
      · rw [fraction_fin_unique (2 * h) _ ⟨(d + (2 * h : Nat)).toNat, by omega⟩]
        · push_cast; ring
        · intro s
          have hs := s.isLt
          rw [Fin.ext_iff]
          dsimp only
          split
          · omega
          · split
            · omega
            · split <;> omega
    simp only [hv]
    rw [Finset.sum_const, Finset.card_univ, Fintype.card_fin, nsmul_eq_mul, mul_div_assoc, mul_div_cancel₀]
    exact hcard
  · rw [if_neg h1]
    have hj0 : (j : Rat) ≠ 0 := by
      have : j ≠ 0 := by omega
      exact_mod_cast this
    have hh0 : (h : Rat) ≠ 0 := by
      have : h ≠ 0 := by omega
      exact_mod_cast this
    by_cases h2 : |d| = h
    · rw [if_pos h2]
      rcases (abs_eq (by omega : (0 : Int) ≤ h)).1 h2 with rfl | rfl
      · have hv : ∀ k : Fin (2 * j), fraction (fun s : Fin (2 * h) =>
            (if s.val < h then (s.val : Int) else if h < s.val then (s.val : Int) - (2 * h : Nat) else if k.val % 2 = 0 then (h : Int) else -(h : Int)) = (h : Int))
            = (1 / (2 * h)) * if k.val % 2 = 0 then (1 : Rat) else 0 := by
          intro k
          by_cases hk : k.val % 2 = 0
          · simp only [hk, if_true]
            rw [fraction_fin_unique (2 * h) _ ⟨h, by omega⟩]
            · push_cast; ring
            · intro s
              have hs := s.isLt
              rw [Fin.ext_iff]
              dsimp only
              split
              · omega
              · split <;> omega
          · simp only [hk, if_false]
            rw [mul_zero, fraction_false]
            intro s
            have hs := s.isLt
            split
            · omega
            · split <;> omega
        simp only [hv]
        rw [← Finset.mul_sum, (count_even j).1]
        push_cast
        field_simp
        ring
      · have hv : ∀ k : Fin (2 * j), fraction (fun s : Fin (2 * h) =>
            (if s.val < h then (s.val : Int) else if h < s.val then (s.val : Int) - (2 * h : Nat) else if k.val % 2 = 0 then (h : Int) else -(h : Int)) = -(h : Int))
            = (1 / (2 * h)) * if k.val % 2 = 0 then (0 : Rat) else 1 := by
          intro k
          by_cases hk : k.val % 2 = 0
          · simp only [hk, if_true]
            rw [mul_zero, fraction_false]
            intro s
            have hs := s.isLt
            split
            · omega
            · split <;> omega
          · simp only [hk, if_false]
            rw [fraction_fin_unique (2 * h) _ ⟨h, by omega⟩]
            · push_cast; ring
            · intro s
              have hs := s.isLt
              rw [Fin.ext_iff]
              dsimp only
              split
              · omega
              · split <;> omega
        simp only [hv]
        rw [← Finset.mul_sum, (count_even j).2]
        push_cast
        field_simp
        ring
    · rw [if_neg h2]
      have hv : ∀ k : Fin (2 * j), fraction (fun s : Fin (2 * h) =>
          (if s.val < h then (s.val : Int) else if h < s.val then (s.val : Int) - (2 * h : Nat) else if k.val % 2 = 0 then (h : Int) else -(h : Int)) = d) = 0 := by
        intro k
        refine fraction_false _ fun s => ?_
        have hs := s.isLt
        have h3 : (h : Int) < |d| := by
          rcases lt_trichotomy |d| (h : Int) with h | h | h
          · exact absurd h h1
          · exact absurd h h2
          · exact h
        rw [lt_abs] at h3
        split
        · omega
        · split
          · omega
          · split <;> omega
      rw [Finset.sum_eq_zero fun k _ => hv k, zero_div]

/-! ### The search -/

theorem logFailure_le (p : Rat) (hp : 0 ≤ p) (e : Int) (he : e < 0) : ¬ logFailure p > e ↔ 0 < p ∧ 256 * p ≤ (2 : Rat) ^ e := by
  unfold logFailure
  by_cases h0 : p = 0
  · subst h0
    simp only [ne_eq, not_true_eq_false, if_false, lt_irrefl, false_and, iff_false, not_not]
    exact_mod_cast he
  · have hpos : 0 < p := lt_of_le_of_ne hp (Ne.symm h0)
    rw [if_pos h0]
    simp only [hpos, true_and, gt_iff_lt, not_lt]
    have h256 : (0 : Real) < ((256 * p : Rat) : Real) := by
      have : (0 : Rat) < 256 * p := by linarith
      exact_mod_cast this
    rw [Real.logb_le_iff_le_rpow (by norm_num) h256, Real.rpow_intCast]
    have e : ((2 : Real) ^ e) = (((2 : Rat) ^ e : Rat) : Real) := by push_cast; rfl
    rw [e, Rat.cast_le]

/-- The condition under which a value of `logT` ends the inner loop. -/
def Accept (D_s : Dict) (q k n logp : Nat) (maxerror : Int) (logT : Nat) : Prop :=
  ∃ p, failure D_s q k n logp logT = some p ∧ ¬ logFailure p > maxerror

/-- What is printed for a pair. -/
noncomputable def rowOf (k n logp logT : Nat) : Row :=
  ⟨logp, logT, ((logp * k * n : Nat) : Rat) / 8 + 32, ((logp * k * n : Nat) : Rat) / 8 + ((n * logT : Nat) : Rat) / 8⟩

theorem searchT_mem (D_s : Dict) (q k n logp : Nat) (maxerror : Int) (l : Nat) (a : Nat) (rows : List Row)
    (h : searchT D_s q k n logp maxerror (List.range' a l) = some rows) (row : Row) :
    row ∈ rows ↔ ∃ logT, a ≤ logT ∧ logT < a + l ∧ row = rowOf k n logp logT ∧ Accept D_s q k n logp maxerror logT ∧
      ∀ T', a ≤ T' → T' < logT → ¬ Accept D_s q k n logp maxerror T' := by
  induction l generalizing a rows with
  | zero =>
    simp only [List.range'_zero, searchT, Option.some.injEq] at h
    subst h
    constructor
    · intro h; cases h
    · rintro ⟨T, h1, h2, _⟩; omega
  | succ l ih =>
    rw [List.range'_succ, searchT] at h
    cases hf : failure D_s q k n logp a with
    | none => rw [hf] at h; cases h
    | some p =>
      rw [hf] at h
      dsimp only at h
      by_cases hg : logFailure p > maxerror
      · rw [if_pos hg] at h
        have hna : ¬ Accept D_s q k n logp maxerror a := by
          rintro ⟨p', e1, e2⟩
          rw [hf, Option.some.injEq] at e1
          subst e1
          exact e2 hg
        rw [ih (a + 1) rows h]
        constructor
        · rintro ⟨T, h1, h2, h3, h4, h5⟩
          refine ⟨T, by omega, by omega, h3, h4, fun T' ha ht => ?_⟩
          by_cases he : T' = a
          · subst he; exact hna
          · exact h5 T' (by omega) ht
        · rintro ⟨T, h1, h2, h3, h4, h5⟩
          have : T ≠ a := by rintro rfl; exact hna h4
          exact ⟨T, by omega, by omega, h3, h4, fun T' ha ht => h5 T' (by omega) ht⟩
      · rw [if_neg hg, Option.some.injEq] at h
        subst h
        have hacc : Accept D_s q k n logp maxerror a := ⟨p, hf, hg⟩
        rw [List.mem_singleton]
        constructor
        · rintro rfl
          exact ⟨a, le_refl _, by omega, rfl, hacc, fun T' h1 h2 => by omega⟩
        · rintro ⟨T, h1, h2, h3, h4, h5⟩
          by_cases he : T = a
          · subst he; exact h3
          · exact absurd hacc (h5 a (le_refl _) (by omega))

theorem searchP_mem (sec : Nat → Rat) (D_s : Dict) (q k n : Nat) (minsec : Rat) (maxerror : Int) (l : Nat) (a : Nat) (rows : List Row)
    (h : searchP sec D_s q k n minsec maxerror (List.range' a l) = some rows) (row : Row) :
    row ∈ rows ↔ ∃ logp logT, a ≤ logp ∧ logp < a + l ∧ (∀ p', a ≤ p' → p' ≤ logp → minsec ≤ sec p') ∧ 1 ≤ logT ∧ logT ≤ 2 * logp - Nat.log 2 q ∧
      row = rowOf k n logp logT ∧ Accept D_s q k n logp maxerror logT ∧ ∀ T', 1 ≤ T' → T' < logT → ¬ Accept D_s q k n logp maxerror T' := by
  induction l generalizing a rows with
  | zero =>
    simp only [List.range'_zero, searchP, Option.some.injEq] at h
    subst h
    constructor
    · intro h; cases h
    · rintro ⟨p, T, h1, h2, _⟩; omega
  | succ l ih =>
    rw [List.range'_succ, searchP] at h
    by_cases hs : sec a < minsec
    · rw [if_pos hs, Option.some.injEq] at h
      subst h
      constructor
      · intro h; cases h
      · rintro ⟨p, T, h1, h2, h3, _⟩
        exact absurd hs (not_lt.2 (h3 a (le_refl _) h1))
    · rw [if_neg hs] at h
      have hr : (List.range (2 * a - Nat.log 2 q + 1)).drop 1 = List.range' 1 (2 * a - Nat.log 2 q) := by
        rw [List.range_eq_range', List.drop_range']
        simp
      rw [hr] at h
      cases h1 : searchT D_s q k n a maxerror (List.range' 1 (2 * a - Nat.log 2 q)) with
      | none => rw [h1] at h; cases h
      | some r =>
        rw [h1] at h
        cases h2 : searchP sec D_s q k n minsec maxerror (List.range' (a + 1) l) with
        | none => rw [h2] at h; cases h
        | some rest =>
          rw [h2] at h
          simp only [Option.bind_eq_bind, Option.bind_some, Option.pure_def, Option.some.injEq] at h
          subst h
          rw [List.mem_append, searchT_mem _ _ _ _ _ _ _ _ _ h1, ih (a + 1) rest h2]
          constructor
          · rintro (⟨T, c1, c2, c3, c4, c5⟩ | ⟨p, T, c1, c2, c3, c4⟩)
            · exact ⟨a, T, le_refl _, by omega, fun p' e1 e2 => by rw [show p' = a by omega]; exact not_lt.1 hs, c1, by omega, c3, c4, c5⟩
            · refine ⟨p, T, by omega, by omega, fun p' e1 e2 => ?_, c4⟩
              by_cases he : p' = a
              · rw [he]; exact not_lt.1 hs
              · exact c3 p' (by omega) e2
          · rintro ⟨p, T, c1, c2, c3, c4, c5, c6, c7, c8⟩
            by_cases he : p = a
            · subst he
              exact Or.inl ⟨T, c4, by omega, c6, c7, c8⟩
            · exact Or.inr ⟨p, T, by omega, by omega, fun p' e1 e2 => c3 p' (by omega) e2, c4, c5, c6, c7, c8⟩

theorem search_mem (sec : Nat → Rat) (D_s : Dict) (q k n : Nat) (minsec : Rat) (maxerror : Int) (rows : List Row)
    (h : search_params sec D_s q k n minsec maxerror = some rows) (row : Row) :
    row ∈ rows ↔ ∃ logp logT, 10 ≤ logp ∧ logp < Nat.log 2 q ∧ (∀ p', 10 ≤ p' → p' ≤ logp → minsec ≤ sec p') ∧ 1 ≤ logT ∧ logT ≤ 2 * logp - Nat.log 2 q ∧
      row = rowOf k n logp logT ∧ Accept D_s q k n logp maxerror logT ∧ ∀ T', 1 ≤ T' → T' < logT → ¬ Accept D_s q k n logp maxerror T' := by
  unfold search_params at h
  have hr : (List.range (Nat.log 2 q)).drop 10 = List.range' 10 (Nat.log 2 q - 10) := by
    rw [List.range_eq_range', List.drop_range']
  rw [hr] at h
  rw [searchP_mem _ _ _ _ _ _ _ _ _ _ h]
  constructor
  · rintro ⟨p, T, c1, c2, c3⟩
    exact ⟨p, T, c1, by omega, c3⟩
  · rintro ⟨p, T, c1, c2, c3⟩
    exact ⟨p, T, c1, by omega, c3⟩

theorem searchT_some (D_s : Dict) (q k n logp : Nat) (maxerror : Int) (l : List Nat) (h : ∀ T ∈ l, failure D_s q k n logp T ≠ none) :
    searchT D_s q k n logp maxerror l ≠ none := by
  induction l with
  | nil => simp [searchT]
  | cons a t ih =>
    rw [searchT]
    cases hf : failure D_s q k n logp a with
    | none => exact absurd hf (h a List.mem_cons_self)
    | some p =>
      dsimp only
      split
      · exact ih fun T hT => h T (List.mem_cons_of_mem _ hT)
      · simp

theorem searchP_some (sec : Nat → Rat) (D_s : Dict) (q k n : Nat) (minsec : Rat) (maxerror : Int) (l : List Nat)
    (h : ∀ logp ∈ l, ∀ T, 1 ≤ T → T ≤ 2 * logp - Nat.log 2 q → failure D_s q k n logp T ≠ none) : searchP sec D_s q k n minsec maxerror l ≠ none := by
  induction l with
  | nil => simp [searchP]
  | cons a t ih =>
    rw [searchP]
    split
    · simp
    · have h1 := searchT_some D_s q k n a maxerror ((List.range (2 * a - Nat.log 2 q + 1)).drop 1) (by
        intro T hT
        rw [List.range_eq_range', List.drop_range', List.mem_range'] at hT
        obtain ⟨i, hi, rfl⟩ := hT
        exact h a List.mem_cons_self _ (by omega) (by omega))
      have h2 := ih fun p hp => h p (List.mem_cons_of_mem _ hp)
      obtain ⟨r, hr⟩ := Option.ne_none_iff_exists'.1 h1
      obtain ⟨r', hr'⟩ := Option.ne_none_iff_exists'.1 h2
      rw [hr, hr']
      simp

/-! ### No exceptions, and values that are not negative -/

theorem nonneg_combine (op : Int → Int → Int) (A B : Dict) (hA : (keys A).Nodup) (hB : (keys B).Nodup) (hA0 : ∀ x, 0 ≤ get A x) (hB0 : ∀ x, 0 ≤ get B x) (c : Int) :
    0 ≤ get (combine op A B) c := by
  rw [get_combine op A B hA hB]
  refine Finset.sum_nonneg fun a _ => mul_nonneg (hA0 a) (Finset.sum_nonneg fun b _ => mul_nonneg (hB0 b) ?_)
  split <;> simp

theorem nonneg_conditioned (A : Dict) (hA : (keys A).Nodup) (hA0 : ∀ x, 0 ≤ get A x) (m c : Int) : 0 ≤ get (conditioned A m) c := by
  rw [get_conditioned A hA]
  refine Finset.sum_nonneg fun a _ => mul_nonneg (hA0 a) ?_
  split
  · refine div_nonneg (hA0 _) ?_
    rw [get_normalizer A hA]
    refine Finset.sum_nonneg fun b _ => mul_nonneg (hA0 b) ?_
    split <;> simp
  · exact le_refl _

theorem exists_key_of_pos (D : Dict) (h : 0 < total D) : ∃ x, x ∈ keys D := by
  by_contra hc
  push Not at hc
  have : (keys D).toFinset = ∅ := by
    ext x
    simp [hc x]
  unfold total at h
  rw [this] at h
  simp at h

theorem keys_pos_clean (A : Dict) (hA : (keys A).Nodup) : ∀ x ∈ keys (clean_dist A), 0 < get (clean_dist A) x := by
  intro x hx
  have hn := nodup_clean A hA
  rw [clean_eq A hA] at hx hn ⊢
  unfold keys at hx
  rw [List.mem_map] at hx
  obtain ⟨⟨y, v⟩, hm, rfl⟩ := hx
  have hv : (1 / 2 ^ 300 : Rat) < v := by
    have := (List.mem_filter.1 hm).2
    simpa using this
  have hg : ∀ (L : Dict), (keys L).Nodup → (y, v) ∈ L → get L y = v := by
    intro L hL hmem
    induction L with
    | nil => cases hmem
    | cons a t ih =>
      obtain ⟨z, w⟩ := a
      simp only [keys, List.map_cons, List.nodup_cons] at hL
      rw [List.mem_cons] at hmem
      unfold get
      rcases hmem with he | hmem
      · obtain ⟨rfl, rfl⟩ := Prod.mk.inj he
        simp
      · rw [if_neg, ih hL.2 hmem]
        rintro rfl
        exact hL.1 (List.mem_map.2 ⟨(z, v), hmem, rfl⟩)
  dsimp only
  rw [hg _ hn hm]
  exact lt_trans (by positivity) hv

theorem digit_pos (A D : Dict) (ch : Bool) : ∀ x ∈ keys (digit A D ch), 0 < get (digit A D ch) x := by
  unfold digit
  cases ch
  · exact keys_pos_clean _ (nodup_combine _ _ _)
  · exact keys_pos_clean _ (nodup_combine _ _ _)

theorem iter_pos (A : Dict) (n : Nat) : ∀ x ∈ keys (iter_law_convolution A n), 0 < get (iter_law_convolution A n) x := by
  rw [iter_eq]
  by_cases h : n < 2
  · rw [bin_lt n h]
    exact digit_pos A _ _
  · rw [bin_ge n h, List.foldl_append]
    exact digit_pos A _ _

theorem key_combine (op : Int → Int → Int) (A B : Dict) (ha : ∃ x, x ∈ keys A) (hb : ∃ x, x ∈ keys B) : ∃ x, x ∈ keys (combine op A B) := by
  have keep : ∀ (ι : Type) (step : Dict → ι → Dict) (l : List ι), (∀ C, ∀ i, (∃ x, x ∈ keys C) → ∃ x, x ∈ keys (step C i)) → ∀ C, (∃ x, x ∈ keys C) → ∃ x, x ∈ keys (l.foldl step C) := by
    intro ι step l hs
    induction l with
    | nil => exact fun C h => h
    | cons a t ih => exact fun C h => ih _ (hs C a h)
  have inner : ∀ a C, ∃ x, x ∈ keys ((keys B).foldl (fun C b => set C (op a b) (get C (op a b) + get A a * get B b)) C) := by
    intro a C
    obtain ⟨b, hb⟩ := hb
    cases hB : keys B with
    | nil => rw [hB] at hb; cases hb
    | cons y t =>
      rw [List.foldl_cons]
      refine keep _ _ t (fun C i ⟨x, hx⟩ => ⟨x, (mem_keys_set _ _ _ _).2 (Or.inl hx)⟩) _ ⟨op a y, (mem_keys_set _ _ _ _).2 (Or.inr rfl)⟩
  unfold combine
  obtain ⟨a, ha⟩ := ha
  cases hA : keys A with
  | nil => rw [hA] at ha; cases ha
  | cons y t =>
    rw [List.foldl_cons]
    refine keep _ _ t (fun C i _ => inner i C) _ (inner y _)

theorem key_conditioned (A : Dict) (m : Int) (ha : ∃ x, x ∈ keys A) : ∃ x, x ∈ keys (conditioned A m) := by
  have keep : ∀ (ι : Type) (step : Dict → ι → Dict) (l : List ι), (∀ C, ∀ i, (∃ x, x ∈ keys C) → ∃ x, x ∈ keys (step C i)) → ∀ C, (∃ x, x ∈ keys C) → ∃ x, x ∈ keys (l.foldl step C) := by
    intro ι step l hs
    induction l with
    | nil => exact fun C h => h
    | cons a t ih => exact fun C h => ih _ (hs C a h)
  have hstep : ∀ a C b, (∃ x, x ∈ keys C) → ∃ x, x ∈ keys (if (a - b) % m = 0 then set C (a - b) (get C (a - b) + get A a * get A b / get (normalizer A m) (a % m)) else C) := by
    rintro a C b ⟨x, hx⟩
    split
    · exact ⟨x, (mem_keys_set _ _ _ _).2 (Or.inl hx)⟩
    · exact ⟨x, hx⟩
  obtain ⟨a, ha⟩ := ha
  unfold conditioned
  cases hA : keys A with
  | nil => rw [hA] at ha; cases ha
  | cons y t =>
    rw [List.foldl_cons]
    refine keep _ _ t (fun C i h => keep _ _ _ (fun C b h => hstep i C b h) C h) _ ?_
    rw [List.foldl_cons]
    refine keep _ _ t (fun C b h => hstep y C b h) _ ?_
    rw [if_pos (by simp)]
    exact ⟨y - y, (mem_keys_set _ _ _ _).2 (Or.inr rfl)⟩

theorem tail_some (D : Dict) (h : ∃ x, x ∈ keys D) (h0 : ∀ x, 0 ≤ get D x) (t : Rat) : ∃ p, tail_probability D t = some p ∧ 0 ≤ p := by
  unfold tail_probability
  obtain ⟨x, hx⟩ := h
  cases hm : (keys D).max? with
  | none =>
    rw [List.max?_eq_none_iff] at hm
    rw [hm] at hx
    cases hx
  | some ma =>
    dsimp only
    split
    · exact ⟨0, rfl, le_refl _⟩
    · refine ⟨_, rfl, ?_⟩
      rw [foldl_add, zero_add]
      exact List.sum_nonneg fun v hv => by
        obtain ⟨i, _, rfl⟩ := List.mem_map.1 hv
        exact add_nonneg (h0 _) (h0 _)

theorem failure_some {Ω : Type} [Fintype Ω] [Nonempty Ω] (D_s : Dict) (hn : (keys D_s).Nodup) (b : Nat) (hb : ∀ x ∈ keys D_s, -(b : Int) ≤ x ∧ x ≤ b) (X : Ω → Int)
    (hX : LawOf (get D_s) X) (a k n logp logT : Nat) (h1 : 1 ≤ logp) (h2 : logp < a) (h3 : 1 ≤ logT) (h4 : logT < a)
    (hsmall : (4 * (k * n) + 1) * (2 * (k * n * (b * 2 ^ (a - logp - 1))) + 1) < 2 ^ 300) :
    ∃ p, failure D_s (2 ^ a) k n logp logT = some p ∧ 0 ≤ p := by
  have split : ∀ e, 1 ≤ e → e < a → 2 ^ a = 2 * 2 ^ (a - e - 1) * 2 ^ e := by
    intro e he1 he2
    rw [← pow_succ', ← pow_add]
    congr 1
    omega
  have two : ∀ e, 1 ≤ e → 2 ≤ 2 ^ e := by
    intro e he
    calc 2 = 2 ^ 1 := rfl
      _ ≤ 2 ^ e := Nat.pow_le_pow_right (by omega) he
  have cast : ∀ e : Nat, ((2 : Int) ^ e) = ((2 ^ e : Nat) : Int) := by intro e; push_cast; rfl
  have law : ∀ e, 1 ≤ e → e < a → LawOf (get (build_mod_switching_error_law ((2 ^ a : Nat) : Int) (2 ^ e))) fun x : Fin (2 * 2 ^ (a - e - 1) * 2 ^ e) => nearestError (2 ^ (a - e - 1)) x := by
    intro e he1 he2
    rw [split e he1 he2, cast]
    exact switching_law _ _ Nat.one_le_two_pow (two e he1)
  have kb : ∀ x ∈ keys (build_mod_switching_error_law ((2 ^ a : Nat) : Int) (2 ^ logp)), -((2 ^ (a - logp - 1) : Nat) : Int) ≤ x ∧ x ≤ ((2 ^ (a - logp - 1) : Nat) : Int) := by
    rw [split logp h1 h2, cast]
    exact keys_switching _ _ Nat.one_le_two_pow (two logp h1)
  have hpos : ∀ e, 0 < 2 * 2 ^ (a - e - 1) * 2 ^ e := fun e => by positivity
  haveI : Nonempty (Fin (2 * 2 ^ (a - logp - 1) * 2 ^ logp)) := ⟨⟨0, hpos logp⟩⟩
  haveI : Nonempty (Fin (2 * 2 ^ (a - logT - 1) * 2 ^ logT)) := ⟨⟨0, hpos logT⟩⟩
  have hse := combine_law (· * ·) D_s (build_mod_switching_error_law ((2 ^ a : Nat) : Int) (2 ^ logp)) hn (nodup_switching _ _) X _ hX (law logp h1 h2)
  have hB := below_of_law (b := b * 2 ^ (a - logp - 1)) (nodup_combine (· * ·) D_s (build_mod_switching_error_law ((2 ^ a : Nat) : Int) (2 ^ logp))) (by
    refine keys_combine (· * ·) _ _ _ fun x hx y hy => ?_
    have e1 := hb x hx
    have e2 := kb y hy
    have := abs_le.2 e1
    have h' := abs_le.2 e2
    rw [← abs_le, abs_mul]
    push_cast at *
    exact mul_le_mul this h' (abs_nonneg _) (by omega)) hse
  have hI := iter_all hB (k * n)
  have htot : 0 < total (iter_law_convolution (combine (· * ·) D_s (build_mod_switching_error_law ((2 ^ a : Nat) : Int) (2 ^ logp))) (k * n)) := by
    refine lt_of_lt_of_le ?_ hI.mass
    rw [sub_pos, ← mul_div_assoc, div_lt_one (by positivity)]
    have : (((4 * (k * n) + 1) * (2 * (k * n * (b * 2 ^ (a - logp - 1))) + 1) : Nat) : Rat) < ((2 ^ 300 : Nat) : Rat) := by exact_mod_cast hsmall
    push_cast at this ⊢
    exact this
  have hkey := exists_key_of_pos _ htot
  unfold failure
  dsimp only
  rw [law_product_eq]
  rw [remove_dependency_eq _ hI.nodup _ _ (iter_pos _ _)]
  dsimp only
  rw [law_convolution_eq]
  refine tail_some _ (key_combine _ _ _ (key_conditioned _ _ hkey) ?_) (nonneg_combine _ _ _ (nodup_conditioned _ _) (nodup_switching _ _)
    (nonneg_conditioned _ hI.nodup hI.nonneg _) fun x => ?_) _
  · exact ⟨_, mem_keys_of_law _ _ (law logT h3 h4) ⟨0, hpos logT⟩⟩
  · rw [law logT h3 h4 x]
    exact fraction_nonneg _

end Saber.Proba
