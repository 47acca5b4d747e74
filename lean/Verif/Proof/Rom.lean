import Verif.Proof.Hiding
import Verif.Spec.Rom
/-!
# Changing a random function at one place
-/
namespace Saber.Rom
open Spec Saber.Hiding Saber.Prob

theorem run_update {I O α : Type} [DecidableEq I] (f : I → O) (x : I) (v : O) : ∀ a : Alg I O α, x ∉ a.asks f → a.run (Function.update f x v) = a.run f := by
  intro a
  induction a with
  | ret a => intro _; rfl
  | ask i next ih =>
    intro h
    simp only [Alg.asks, List.mem_cons, not_or] at h
    simp only [Alg.run, Function.update_of_ne (Ne.symm h.1)]
    exact ih _ h.2

/-- A random function at a place that is chosen independently is a random value with which the function is changed at this place. -/
theorem fraction_update {D I V : Type} [Fintype D] [Fintype I] [DecidableEq I] [Fintype V] [Nonempty V] (x : D → I) (p : D → (I → V) → V → Prop) :
    fraction (fun d : D × (I → V) => p d.1 d.2 (d.2 (x d.1))) = fraction (fun d : D × (I → V) × V => p d.1 (Function.update d.2.1 (x d.1) d.2.2) d.2.2) := by
  let e : D × (I → V) × V ≃ (D × (I → V)) × V := {
    toFun d := ((d.1, Function.update d.2.1 (x d.1) d.2.2), d.2.1 (x d.1))
    invFun y := (y.1.1, Function.update y.1.2 (x y.1.1) y.2, y.1.2 (x y.1.1))
    left_inv d := by simp
    right_inv y := by simp }
  rw [← fraction_fst (Ω' := V) (fun d : D × (I → V) => p d.1 d.2 (d.2 (x d.1))), ← fraction_equiv e]
  refine fraction_congr fun d => ?_
  show p d.1 (Function.update d.2.1 (x d.1) d.2.2) (Function.update d.2.1 (x d.1) d.2.2 (x d.1)) ↔ _
  rw [Function.update_self]

theorem fraction_mono {Ω : Type} [Fintype Ω] {p q : Ω → Prop} (h : ∀ ω, p ω → q ω) : fraction p ≤ fraction q := by
  classical
  unfold fraction
  refine div_le_div_of_nonneg_right ?_ (by positivity)
  rw [count_eq, count_eq]
  exact_mod_cast Finset.card_le_card (Finset.monotone_filter_right _ fun ω _ => h ω)

theorem fraction_or {Ω : Type} [Fintype Ω] (p q : Ω → Prop) : fraction (fun ω => p ω ∨ q ω) ≤ fraction p + fraction q := by
  classical
  unfold fraction
  rw [← add_div]
  refine div_le_div_of_nonneg_right ?_ (by positivity)
  rw [count_eq, count_eq, count_eq, Finset.filter_or]
  exact_mod_cast Finset.card_union_le _ _

/-- Events that agree outside of a third. -/
theorem fraction_diff {Ω : Type} [Fintype Ω] {p q r : Ω → Prop} (h : ∀ ω, ¬ r ω → (p ω ↔ q ω)) : |fraction p - fraction q| ≤ fraction r := by
  have h1 : fraction p ≤ fraction q + fraction r := (fraction_mono fun ω hp => by
    by_cases hr : r ω
    · exact .inr hr
    · exact .inl ((h ω hr).mp hp)).trans (fraction_or q r)
  have h2 : fraction q ≤ fraction p + fraction r := (fraction_mono fun ω hp => by
    by_cases hr : r ω
    · exact .inr hr
    · exact .inl ((h ω hr).mpr hp)).trans (fraction_or p r)
  rw [abs_le]
  constructor <;> linarith

/-- One of `q` places, taken at random, is the right one with probability `1/q`. -/
theorem fraction_place {Ω I : Type} [Fintype Ω] (q : Nat) (hq : 0 < q) (l : Ω → List I) (hl : ∀ ω, (l ω).length ≤ q) (x : Ω → I) :
    fraction (fun ω => x ω ∈ l ω) ≤ q * fraction (fun y : Ω × Fin q => (l y.1)[y.2.val]? = some (x y.1)) := by
  have h0 : (0 : ℚ) < q := by exact_mod_cast hq
  have e : count (fun ω => x ω ∈ l ω) ≤ count (fun y : Ω × Fin q => (l y.1)[y.2.val]? = some (x y.1)) := by
    classical
    rw [count_eq, count_eq]
    refine Finset.card_le_card_of_surjOn Prod.fst ?_
    intro ω hω
    have hω : x ω ∈ l ω := by simpa using hω
    obtain ⟨i, hi, e⟩ := List.mem_iff_getElem.mp hω
    refine ⟨(ω, ⟨i, by have := hl ω; omega⟩), ?_, rfl⟩
    simp [List.getElem?_eq_getElem hi, e]
  have e : (count (fun ω => x ω ∈ l ω) : ℚ) ≤ count (fun y : Ω × Fin q => (l y.1)[y.2.val]? = some (x y.1)) := by exact_mod_cast e
  unfold fraction
  rw [Fintype.card_prod, Fintype.card_fin]
  push_cast
  rw [mul_div_assoc', mul_comm (q : ℚ), mul_div_mul_right _ _ h0.ne']
  exact div_le_div_of_nonneg_right e (by positivity)

/-- A random function gives a key and coins for a place `x`.  Whoever does not ask at this place cannot tell the key from another. -/
theorem hide_key {D I K R : Type} [Fintype D] [Fintype I] [DecidableEq I] [Fintype K] [Nonempty K] [Fintype R] [Nonempty R] (x : D → I)
    (A : D → R → K → Alg I (K × R) Bool) :
    |fraction (fun d : D × (I → K × R) => (A d.1 (d.2 (x d.1)).2 (d.2 (x d.1)).1).run d.2 = true) -
      fraction (fun d : (D × (I → K × R)) × K => (A d.1.1 (d.1.2 (x d.1.1)).2 d.2).run d.1.2 = true)| ≤
    2 * fraction (fun d : D × (I → K × R) × K × R => x d.1 ∈ (A d.1 d.2.2.2 d.2.2.1).asks d.2.1) := by
  have h1 := fraction_update x fun d G v => (A d v.2 v.1).run G = true
  have d1 : |fraction (fun d : D × (I → K × R) × K × R => (A d.1 d.2.2.2 d.2.2.1).run (Function.update d.2.1 (x d.1) d.2.2) = true) -
      fraction (fun d : D × (I → K × R) × K × R => (A d.1 d.2.2.2 d.2.2.1).run d.2.1 = true)| ≤
      fraction (fun d : D × (I → K × R) × K × R => x d.1 ∈ (A d.1 d.2.2.2 d.2.2.1).asks d.2.1) :=
    fraction_diff fun d hd => by rw [run_update _ _ _ _ hd]
  let e : (D × (I → K × R)) × K ≃ (D × K) × (I → K × R) := {
    toFun d := ((d.1.1, d.2), d.1.2)
    invFun y := ((y.1.1, y.2), y.1.2)
    left_inv d := rfl
    right_inv y := rfl }
  have h2 := (fraction_equiv e fun y => (A y.1.1 (y.2 (x y.1.1)).2 y.1.2).run y.2 = true).trans
    (fraction_update (fun y : D × K => x y.1) fun y G v => (A y.1 v.2 y.2).run G = true)
  have d2 : |fraction (fun d : (D × K) × (I → K × R) × K × R => (A d.1.1 d.2.2.2 d.1.2).run (Function.update d.2.1 (x d.1.1) d.2.2) = true) -
      fraction (fun d : (D × K) × (I → K × R) × K × R => (A d.1.1 d.2.2.2 d.1.2).run d.2.1 = true)| ≤
      fraction (fun d : (D × K) × (I → K × R) × K × R => x d.1.1 ∈ (A d.1.1 d.2.2.2 d.1.2).asks d.2.1) :=
    fraction_diff fun d hd => by rw [run_update _ _ _ _ hd]
  let f : (D × K) × (I → K × R) × K × R ≃ (D × (I → K × R) × K × R) × K := {
    toFun d := ((d.1.1, d.2.1, d.1.2, d.2.2.2), d.2.2.1)
    invFun y := ((y.1.1, y.1.2.2.1), y.1.2.1, y.2, y.1.2.2.2)
    left_inv d := rfl
    right_inv y := rfl }
  have s1 : fraction (fun d : (D × K) × (I → K × R) × K × R => (A d.1.1 d.2.2.2 d.1.2).run d.2.1 = true) =
      fraction (fun d : D × (I → K × R) × K × R => (A d.1 d.2.2.2 d.2.2.1).run d.2.1 = true) := by
    rw [← fraction_fst (Ω' := K) (fun d : D × (I → K × R) × K × R => (A d.1 d.2.2.2 d.2.2.1).run d.2.1 = true), ← fraction_equiv f]
    exact fraction_congr fun d => Iff.rfl
  have s2 : fraction (fun d : (D × K) × (I → K × R) × K × R => x d.1.1 ∈ (A d.1.1 d.2.2.2 d.1.2).asks d.2.1) =
      fraction (fun d : D × (I → K × R) × K × R => x d.1 ∈ (A d.1 d.2.2.2 d.2.2.1).asks d.2.1) := by
    rw [← fraction_fst (Ω' := K) (fun d : D × (I → K × R) × K × R => x d.1 ∈ (A d.1 d.2.2.2 d.2.2.1).asks d.2.1), ← fraction_equiv f]
    exact fraction_congr fun d => Iff.rfl
  rw [s1, s2] at d2
  have h2' : fraction (fun d : (D × (I → K × R)) × K => (A d.1.1 (d.1.2 (x d.1.1)).2 d.2).run d.1.2 = true) = _ := h2
  rw [h1, h2']
  rw [abs_le] at d1 d2 ⊢
  constructor <;> linarith [d1.1, d1.2, d2.1, d2.2]

/-- The place is found among the questions. -/
theorem place_bound {Ω B I V : Type} [Fintype Ω] [Fintype B] [Fintype I] [DecidableEq I] [Fintype V] (q : Nat) (hq : 0 < q)
    (x : B → B → B → I) (A : Ω → B → B → B → B → B → Alg I V Bool) (hA : ∀ ω r1 r2 u e k, (A ω r1 r2 u e k).AtMost q)
    (W : Ω × (I → V) × B × Fin q → B → B → B → B → Prop)
    (h : ∀ ω G k i r1 r2 e u, ((A ω r1 r2 u e k).asks G)[i.val]? = some (x r1 r2 u) → W (ω, G, k, i) r1 r2 e u) :
    fraction (fun d : (Ω × B × B × B) × (I → V) × B × B => x d.1.2.1 d.1.2.2.1 d.1.2.2.2 ∈ (A d.1.1 d.1.2.1 d.1.2.2.1 d.1.2.2.2 d.2.2.2 d.2.2.1).asks d.2.1) ≤
      q * fraction (fun d : (Ω × (I → V) × B × Fin q) × B × B × B × B => W d.1 d.2.1 d.2.2.1 d.2.2.2.1 d.2.2.2.2) := by
  refine (fraction_place q hq (fun d : (Ω × B × B × B) × (I → V) × B × B => (A d.1.1 d.1.2.1 d.1.2.2.1 d.1.2.2.2 d.2.2.2 d.2.2.1).asks d.2.1)
    (fun d => hA _ _ _ _ _ _ _) fun d => x d.1.2.1 d.1.2.2.1 d.1.2.2.2).trans ?_
  refine mul_le_mul_of_nonneg_left ?_ (by positivity)
  let e : (Ω × (I → V) × B × Fin q) × B × B × B × B ≃ ((Ω × B × B × B) × (I → V) × B × B) × Fin q := {
    toFun d := (((d.1.1, d.2.1, d.2.2.1, d.2.2.2.2), d.1.2.1, d.1.2.2.1, d.2.2.2.1), d.1.2.2.2)
    invFun y := ((y.1.1.1, y.1.2.1, y.1.2.2.1, y.2), y.1.1.2.1, y.1.1.2.2.1, y.1.2.2.2, y.1.1.2.2.2)
    left_inv d := rfl
    right_inv y := rfl }
  rw [← fraction_equiv e]
  exact fraction_mono fun d hd => h _ _ _ _ _ _ _ _ hd

/-- The eavesdropper, with the public key and the ciphertext made from the random bytes. -/
def eaves (S : Pke) (h : List Byte → Bytes 32) {Ω : Type} (A : Eavesdropper Ω) (ω : Ω) (r1 r2 u e k : Bytes 32) : Alg Pair32 Pair32 Bool :=
  A ω (S.realKey r1 r2) (S.enc (List.ofFn (h (List.ofFn u))) (List.ofFn e) (S.realKey r1 r2)) k

theorem fraction_nonneg {Ω : Type} [Fintype Ω] (p : Ω → Prop) : 0 ≤ fraction p := by
  unfold fraction
  positivity

theorem eaves_bound (S : Pke) (hq : S.eq = 12 ∨ S.eq = 13) (hT : S.eT ≤ 7) (h : List Byte → Bytes 32) (γ : ℚ)
    (hγ : ∀ w, fraction (fun u : Bytes 32 => h (List.ofFn u) = w) ≤ γ) {Ω : Type} [Fintype Ω] [Nonempty Ω] (A : Eavesdropper Ω) (q : Nat) (q0 : 0 < q)
    (hA : ∀ ω pk c k, (A ω pk c k).AtMost q) :
    |fraction (fun d : (Ω × Bytes 32 × Bytes 32 × Bytes 32) × (Pair32 → Pair32) => seesKey S h A d.1.1 d.1.2.1 d.1.2.2.1 d.1.2.2.2 d.2) -
      fraction (fun d : ((Ω × Bytes 32 × Bytes 32 × Bytes 32) × (Pair32 → Pair32)) × Bytes 32 =>
        seesOther S h A d.1.1.1 d.1.1.2.1 d.1.1.2.2.1 d.1.1.2.2.2 d.1.2 d.2)| ≤
    2 * q * (γ + 2 * (keyAdvantage S (keyAttack S (recoverAttacker (fun u => List.ofFn (h (List.ofFn u))) (questionOf A q))) +
      encAdvantage S (encAttack S (recoverAttacker (fun u => List.ofFn (h (List.ofFn u))) (questionOf A q))))) := by
  have : Nonempty (Fin q) := ⟨⟨0, q0⟩⟩
  have h1 := hide_key (fun d : Ω × Bytes 32 × Bytes 32 × Bytes 32 => (h (List.ofFn d.2.2.2), h (S.realKey d.2.1 d.2.2.1)))
    fun d e k => eaves S h A d.1 d.2.1 d.2.2.1 d.2.2.2 e k
  have h2 := place_bound q q0 (fun r1 r2 u => (h (List.ofFn u), h (S.realKey r1 r2))) (eaves S h A) (fun ω r1 r2 u e k => hA _ _ _ _)
    (fun ω r1 r2 e u => recovers S (fun u => List.ofFn (h (List.ofFn u))) (questionOf A q) ω r1 r2 e u u) fun ω G k i r1 r2 e u hx => by
      unfold recovers questionOf
      unfold eaves at hx
      simp only [hx]
  have h3 := oneway_bound S hq hT (fun u => List.ofFn (h (List.ofFn u))) γ (fun w => by
      by_cases hw : ∃ v : Bytes 32, List.ofFn v = w
      · obtain ⟨v, rfl⟩ := hw
        exact le_of_eq_of_le (fraction_congr fun u => List.ofFn_inj) (hγ v)
      · refine le_of_eq_of_le ?_ ((fraction_nonneg _).trans (hγ fun _ => 0))
        unfold fraction
        have : count (fun u : Bytes 32 => List.ofFn (h (List.ofFn u)) = w) = 0 := by
          classical
          rw [count_eq, Finset.card_eq_zero, Finset.filter_eq_empty_iff]
          exact fun u _ e => hw ⟨_, e⟩
        rw [this, Nat.cast_zero, zero_div])
    (questionOf A q) _ fun ω r1 r2 e m => Iff.rfl
  refine le_trans ?_ (le_trans (mul_le_mul_of_nonneg_left (h2.trans (mul_le_mul_of_nonneg_left h3 (by positivity))) (by norm_num : (0 : ℚ) ≤ 2)) ?_)
  · exact h1
  · rw [mul_assoc]

end Saber.Rom
