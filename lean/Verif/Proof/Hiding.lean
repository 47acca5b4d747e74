import Verif.Spec.Hiding
import Verif.Proof.Prob
import Verif.Proof.Ring
import Verif.Proof.Indcpa
import Verif.Proof.RoundTrip
import Mathlib.Logic.Equiv.Fin.Basic
/-!
# Hiding of messages: the sequence of games
-/
namespace Saber.Hiding
open Spec Prob

/-! ### Fractions -/

theorem fraction_equiv {Ω Ω' : Type} [Fintype Ω] [Fintype Ω'] (e : Ω ≃ Ω') (p : Ω' → Prop) : fraction (fun ω => p (e ω)) = fraction p := by
  unfold fraction
  rw [count_equiv, Fintype.card_congr e]

theorem fraction_congr {Ω : Type} [Fintype Ω] {p q : Ω → Prop} (h : ∀ ω, p ω ↔ q ω) : fraction p = fraction q := by
  rw [show p = q from funext fun ω => propext (h ω)]

theorem fraction_fst {Ω Ω' : Type} [Fintype Ω] [Fintype Ω'] [Nonempty Ω'] (p : Ω → Prop) : fraction (fun x : Ω × Ω' => p x.1) = fraction p := by
  have h0 : (Fintype.card Ω' : ℚ) ≠ 0 := by exact_mod_cast Fintype.card_ne_zero
  have e : count (fun x : Ω × Ω' => p x.1) = count p * Fintype.card Ω' := by
    classical
    rw [count_prod_right]
    simp [Finset.sum_const, mul_comm]
  unfold fraction
  rw [e, Fintype.card_prod]
  push_cast
  rw [mul_div_mul_right _ _ h0]

/-- If for both values of a bit the same number of choices lead to the answer 1, then the bit is answered correctly in half of the cases. -/
theorem fraction_bit {Ω W : Type} [Fintype Ω] [Nonempty Ω] [Fintype W] [Nonempty W] (g : Ω → W → Bool) (φ : Ω → Bool → W ≃ W) :
    fraction (fun x : Ω × Bool × W => g x.1 (φ x.1 x.2.1 x.2.2) = x.2.1) = 1 / 2 := by
  have h0 : (Fintype.card W : ℚ) ≠ 0 := by exact_mod_cast Fintype.card_ne_zero
  have h1 : (Fintype.card Ω : ℚ) ≠ 0 := by exact_mod_cast Fintype.card_ne_zero
  have e : count (fun x : Ω × Bool × W => g x.1 (φ x.1 x.2.1 x.2.2) = x.2.1) = Fintype.card Ω * Fintype.card W := by
    rw [count_prod]
    have : ∀ ω, (count fun y : Bool × W => g ω (φ ω y.1 y.2) = y.1) = Fintype.card W := by
      intro ω
      rw [count_prod]
      show ∑ b : Bool, count (fun w => g ω (φ ω b w) = b) = _
      rw [Fintype.sum_bool, count_equiv (φ ω true) fun w => g ω w = true, count_equiv (φ ω false) fun w => g ω w = false]
      classical
      rw [count_eq, count_eq]
      have := Finset.card_filter_add_card_filter_not (s := (Finset.univ : Finset W)) (fun w => g ω w = true)
      simp only [Bool.not_eq_true] at this
      rw [this, Finset.card_univ]
    rw [Finset.sum_congr rfl fun ω _ => this ω, Finset.sum_const, Finset.card_univ, smul_eq_mul]
  unfold fraction
  rw [e]
  simp only [Fintype.card_prod, Fintype.card_bool]
  push_cast
  rw [mul_comm 2 (Fintype.card W : ℚ), ← mul_assoc]
  exact (div_mul_cancel_left₀ (mul_ne_zero h1 h0) 2).trans (by norm_num)

/-! ### Bits of the coefficients -/

/-- Low bits and high bits. -/
def splitFin (eq : Nat) (h : 10 ≤ eq) : Fin (2 ^ eq) ≃ Fin (2 ^ (eq - 10)) × Fin (2 ^ 10) :=
  (finCongr (by rw [← pow_add, Nat.sub_add_cancel h])).trans finProdFinEquiv.symm

theorem splitFin_low (eq : Nat) (h : 10 ≤ eq) (x : Fin (2 ^ eq)) : (splitFin eq h x).2.val = x.val % 1024 := rfl

/-- The same for vectors. -/
def splitVec (l eq : Nat) (h : 10 ≤ eq) : RVec l eq ≃ RVec l 10 × RVec l (eq - 10) where
  toFun c := (fun i n => (splitFin eq h (c i n)).2, fun i n => (splitFin eq h (c i n)).1)
  invFun p i n := (splitFin eq h).symm (p.2 i n, p.1 i n)
  left_inv c := by
    funext i n
    simp
  right_inv p := by
    simp

/-- Subtraction of a constant modulo `2^10`. -/
def shiftFin (t : Int) : Fin (2 ^ 10) ≃ Fin (2 ^ 10) where
  toFun w := ⟨((w.val - t) % 1024).toNat, by omega⟩
  invFun w := ⟨((w.val + t) % 1024).toNat, by omega⟩
  left_inv w := by
    apply Fin.ext
    have := w.isLt
    simp only
    omega
  right_inv w := by
    apply Fin.ext
    have := w.isLt
    simp only
    omega

theorem shiftFin_val (t : Int) (w : Fin (2 ^ 10)) : ((shiftFin t w).val : Int) = (w.val - t) % 1024 := by
  show ((((w.val : Int) - t) % 1024).toNat : Int) = _
  omega

/-- The same for the coefficients of a polynomial. -/
def shiftVec (t : Poly) : RVec 1 10 ≃ RVec 1 10 := Equiv.piCongrRight fun _ => Equiv.piCongrRight fun n => shiftFin (t n)

theorem shiftVec_int (t : Poly) (w : RVec 1 10) (n : Fin 256) : (shiftVec t w).int 0 n = (w.int 0 n - t n) % 1024 := shiftFin_val _ _

/-! ### The games -/

/-- The low bits of the coefficients are what a public key holds. -/
theorem key_low (S : Pke) (h : 10 ≤ S.eq) (seed : List Byte) (c : RVec S.l S.eq) :
    S.key seed c.int = S.key seed (splitVec S.l S.eq h c).1.int := by
  unfold Pke.key
  congr 1
  refine packVec_congr (by decide) fun i n => ?_
  show ((c i n).val : Int) % _ = ((((splitFin S.eq h (c i n)).2.val : Nat) : Int)) % _
  rw [splitFin_low]
  push_cast
  omega

/-- A ciphertext from the rounded products. -/
theorem enc_eq (S : Pke) (hq : S.eq = 12 ∨ S.eq = 13) (hT : S.eT ≤ 7) (seed m coins : List Byte) (c : PVec S.l) :
    S.enc m coins (S.key seed c) = packVec 10 (fun i => roundTo10 S.eq (matVec (S.gen seed) (S.secret coins) i)) ++
      pack S.eT fun k => (roundTo10 S.eq (innerProd c (S.secret coins)) k - 2 ^ (19 - S.eq) * unpack 1 m k) % 2 ^ (20 - S.eq) /
        2 ^ (20 - S.eq - S.eT) := by
  unfold Pke.enc
  have e1 : (S.key seed c).drop (S.l * 320) = seed := by
    unfold Pke.key
    rw [List.drop_append_of_le_length (by rw [length_packVec]), List.drop_of_length_le (by rw [length_packVec]), List.nil_append]
  rw [e1]
  congr 2
  funext k
  have e2 : innerProd (unpackVec 10 S.l (S.key seed c)) (S.secret coins) k % 1024 = innerProd c (S.secret coins) k % 1024 := by
    refine innerProd_congr (m := 1024) (fun j n => ?_) (fun j n => rfl) k
    unfold Pke.key
    rw [unpackVec_packVec]
    push_cast
    omega
  generalize innerProd (unpackVec 10 S.l (S.key seed c)) (S.secret coins) k = x at e2
  have e3 (x : Poly) : roundTo10 S.eq x k = (x k + 2 ^ (S.eq - 11)) % 2 ^ S.eq / 2 ^ (S.eq - 10) := rfl
  rw [e3]
  generalize innerProd c (S.secret coins) k = y at e2
  generalize unpack 1 m k = b
  generalize S.eT = t at hT
  rcases hq with hq | hq <;> rw [hq] <;> interval_cases t <;> norm_num <;> omega

/-- The real game with the bytes drawn for the key and the encryption. -/
theorem hiding_bound (S : Pke) (hq : S.eq = 12 ∨ S.eq = 13) (hT : S.eT ≤ 7) {Ω : Type} [Fintype Ω] [Nonempty Ω] (a : Attacker Ω) :
    |fraction (fun d : (Ω × Bytes 32 × Bool) × Bytes 32 × Bytes 32 => keyAttack S a d.1 (S.seedOf (List.ofFn d.2.1))
      fun i => roundTo10 S.eq (matVec (transpose (S.gen (S.seedOf (List.ofFn d.2.1)))) (S.secret (List.ofFn d.2.2)) i)) - 1 / 2| ≤
    keyAdvantage S (keyAttack S a) + encAdvantage S (encAttack S a) := by
  have h10 : 10 ≤ S.eq := by omega
  have mid : fraction (fun d : (Ω × Bytes 32 × Bool) × Bytes 32 × RVec S.l 10 => keyAttack S a d.1 (S.seedOf (List.ofFn d.2.1)) d.2.2.int) =
      fraction (fun d : (Ω × Bool) × Bytes 32 × RVec S.l S.eq × Bytes 32 => encAttack S a d.1 (S.seedOf (List.ofFn d.2.1)) d.2.2.1.int
        (fun i => roundTo10 S.eq (matVec (S.gen (S.seedOf (List.ofFn d.2.1))) (S.secret (List.ofFn d.2.2.2)) i))
        (roundTo10 S.eq (innerProd d.2.2.1.int (S.secret (List.ofFn d.2.2.2))))) := by
    let e : ((Ω × Bool) × Bytes 32 × RVec S.l S.eq × Bytes 32) ≃ ((Ω × Bytes 32 × Bool) × Bytes 32 × RVec S.l 10) × RVec S.l (S.eq - 10) := {
      toFun d := (((d.1.1, d.2.2.2, d.1.2), d.2.1, (splitVec S.l S.eq h10 d.2.2.1).1), (splitVec S.l S.eq h10 d.2.2.1).2)
      invFun x := ((x.1.1.1, x.1.1.2.2), x.1.2.1, (splitVec S.l S.eq h10).symm (x.1.2.2, x.2), x.1.1.2.1)
      left_inv d := by simp
      right_inv x := by simp }
    rw [← fraction_fst (Ω' := RVec S.l (S.eq - 10)), ← fraction_equiv e]
    refine fraction_congr fun d => ?_
    unfold keyAttack encAttack
    show a.guess d.1.1 (S.key _ (splitVec S.l S.eq h10 d.2.2.1).1.int) (S.enc (a.messages d.1.1 (S.key _ (splitVec S.l S.eq h10 d.2.2.1).1.int) d.1.2)
      (List.ofFn d.2.2.2) (S.key _ (splitVec S.l S.eq h10 d.2.2.1).1.int)) = d.1.2 ↔ _
    rw [← key_low, enc_eq S hq hT]
    rfl
  have fin : fraction (fun d : (Ω × Bool) × Bytes 32 × RVec S.l S.eq × RVec S.l 10 × RVec 1 10 =>
      encAttack S a d.1 (S.seedOf (List.ofFn d.2.1)) d.2.2.1.int d.2.2.2.1.int (d.2.2.2.2.int 0)) = 1 / 2 := by
    let e : ((Ω × Bool) × Bytes 32 × RVec S.l S.eq × RVec S.l 10 × RVec 1 10) ≃ (Ω × Bytes 32 × RVec S.l S.eq × RVec S.l 10) × Bool × RVec 1 10 := {
      toFun d := ((d.1.1, d.2.1, d.2.2.1, d.2.2.2.1), d.1.2, d.2.2.2.2)
      invFun x := ((x.1.1, x.2.1), x.1.2.1, x.1.2.2.1, x.1.2.2.2, x.2.2)
      left_inv d := rfl
      right_inv x := rfl }
    rw [← fraction_bit (Ω := Ω × Bytes 32 × RVec S.l S.eq × RVec S.l 10) (W := RVec 1 10)
      (fun o w => a.guess o.1 (S.key (S.seedOf (List.ofFn o.2.1)) o.2.2.1.int) (packVec 10 o.2.2.2.int ++
        pack S.eT fun k => w.int 0 k % 2 ^ (20 - S.eq) / 2 ^ (20 - S.eq - S.eT)))
      (fun o b => shiftVec fun k => 2 ^ (19 - S.eq) * unpack 1 (a.messages o.1 (S.key (S.seedOf (List.ofFn o.2.1)) o.2.2.1.int) b) k),
      ← fraction_equiv e]
    refine fraction_congr fun d => ?_
    unfold encAttack
    simp only [shiftVec_int]
    have (x : Int) : x % 1024 % 2 ^ (20 - S.eq) = x % 2 ^ (20 - S.eq) := by
      rcases hq with hq | hq <;> rw [hq] <;> norm_num <;> omega
    simp only [this]
    rfl
  unfold keyAdvantage encAdvantage
  rw [mid, fin]
  exact abs_sub_le _ _ _

theorem reorder {Ω : Type} [Fintype Ω] (p : Ω → Bytes 32 → Bytes 32 → Bytes 32 → Bool → Prop) :
    fraction (fun d : Ω × Bytes 32 × Bytes 32 × Bytes 32 × Bool => p d.1 d.2.1 d.2.2.1 d.2.2.2.1 d.2.2.2.2) =
      fraction (fun d : (Ω × Bytes 32 × Bool) × Bytes 32 × Bytes 32 => p d.1.1 d.2.1 d.2.2 d.1.2.1 d.1.2.2) := by
  let e : (Ω × Bytes 32 × Bytes 32 × Bytes 32 × Bool) ≃ (Ω × Bytes 32 × Bool) × Bytes 32 × Bytes 32 := {
    toFun d := ((d.1, d.2.2.2.1, d.2.2.2.2), d.2.1, d.2.2.1)
    invFun x := (x.1.1, x.2.1, x.2.2, x.1.2.1, x.1.2.2)
    left_inv d := rfl
    right_inv x := rfl }
  exact fraction_equiv e fun d => p d.1.1 d.2.1 d.2.2 d.1.2.1 d.1.2.2

/-- The event of the real game. -/
def keyWins (S : Pke) {Ω : Type} (a : Attacker Ω) (ω : Ω) (r1 r2 e : Bytes 32) (b : Bool) : Prop :=
  keyAttack S a (ω, e, b) (S.seedOf (List.ofFn r1)) fun i =>
    roundTo10 S.eq (matVec (transpose (S.gen (S.seedOf (List.ofFn r1)))) (S.secret (List.ofFn r2)) i)

theorem game_bound (S : Pke) (hq : S.eq = 12 ∨ S.eq = 13) (hT : S.eT ≤ 7) {Ω : Type} [Fintype Ω] [Nonempty Ω] (a : Attacker Ω)
    (W : Ω → Bytes 32 → Bytes 32 → Bytes 32 → Bool → Prop) (h : ∀ ω r1 r2 e b, W ω r1 r2 e b ↔ keyWins S a ω r1 r2 e b) :
    |fraction (fun d : Ω × Bytes 32 × Bytes 32 × Bytes 32 × Bool => W d.1 d.2.1 d.2.2.1 d.2.2.2.1 d.2.2.2.2) - 1 / 2| ≤
      keyAdvantage S (keyAttack S a) + encAdvantage S (encAttack S a) := by
  have e : W = keyWins S a := by
    funext ω r1 r2 e b
    exact propext (h ω r1 r2 e b)
  rw [e, reorder]
  exact hiding_bound S hq hT a

/-! ### Recovering a message -/

theorem fraction_bool {Ω : Type} [Fintype Ω] (p : Ω → Bool → Prop) :
    fraction (fun x : Ω × Bool => p x.1 x.2) = (fraction (fun ω => p ω true) + fraction (fun ω => p ω false)) / 2 := by
  unfold fraction
  rw [count_prod_right]
  show ((∑ b : Bool, count (fun ω => p ω b) : Nat) : ℚ) / _ = _
  rw [Fintype.sum_bool, Fintype.card_prod, Fintype.card_bool]
  push_cast
  rw [← add_div, div_div]

theorem fraction_not {Ω : Type} [Fintype Ω] [Nonempty Ω] (p : Ω → Prop) : fraction (fun ω => ¬ p ω) = 1 - fraction p := by
  have h1 : (Fintype.card Ω : ℚ) ≠ 0 := by exact_mod_cast Fintype.card_ne_zero
  have e : count p + count (fun ω => ¬ p ω) = Fintype.card Ω := by
    classical
    rw [count_eq, count_eq, Finset.card_filter_add_card_filter_not, Finset.card_univ]
  have e : (count p : ℚ) + count (fun ω => ¬ p ω) = Fintype.card Ω := by exact_mod_cast e
  unfold fraction
  rw [eq_sub_iff_add_eq, ← add_div, add_comm, e, div_self h1]

/-- A value drawn independently has a property with probability at most `γ` if it does for every choice of the other values. -/
theorem fraction_hit {Ω W : Type} [Fintype Ω] [Nonempty Ω] [Fintype W] [Nonempty W] (f : Ω → W → Prop) (γ : ℚ) (h : ∀ ω, fraction (f ω) ≤ γ) :
    fraction (fun x : Ω × W => f x.1 x.2) ≤ γ := by
  have h0 : (0 : ℚ) < Fintype.card W := by exact_mod_cast Fintype.card_pos
  have h1 : (0 : ℚ) < Fintype.card Ω := by exact_mod_cast Fintype.card_pos
  have e : (count (fun x : Ω × W => f x.1 x.2) : ℚ) ≤ Fintype.card Ω * (γ * Fintype.card W) := by
    rw [count_prod]
    push_cast
    calc _ ≤ ∑ _ω : Ω, γ * Fintype.card W := Finset.sum_le_sum fun ω _ => by
          have := h ω
          unfold fraction at this
          rwa [div_le_iff₀ h0] at this
      _ = _ := by rw [Finset.sum_const, Finset.card_univ, nsmul_eq_mul]
  unfold fraction
  rw [Fintype.card_prod, div_le_iff₀ (by push_cast; positivity)]
  push_cast
  linarith

theorem card_bytes : (Fintype.card (Bytes 32) : ℚ) = 2 ^ 256 := by
  have : Fintype.card Byte = 256 := by
    rw [Fintype.card_eq.mpr ⟨(⟨BitVec.toFin, BitVec.ofFin, fun _ => rfl, fun _ => rfl⟩ : Byte ≃ Fin (2 ^ 8))⟩, Fintype.card_fin]
    rfl
  rw [Fintype.card_fun, this, Fintype.card_fin]
  norm_num

theorem count_inj {W X : Type} [Fintype W] (f : W → X) (hf : Function.Injective f) (x : X) : count (fun w => f w = x) ≤ 1 := by
  classical
  rw [count_eq, Finset.card_le_one]
  intro a ha b hb
  exact hf (((Finset.mem_filter.mp ha).2).trans ((Finset.mem_filter.mp hb).2).symm)

/-- A uniform message is hit with probability `2^-256`. -/
theorem uniform_hit (w : List Byte) : fraction (fun u : Bytes 32 => List.ofFn u = w) ≤ 1 / 2 ^ 256 := by
  have e : (count (fun u : Bytes 32 => List.ofFn u = w) : ℚ) ≤ 1 := by exact_mod_cast count_inj List.ofFn List.ofFn_injective w
  unfold fraction
  rw [card_bytes]
  exact div_le_div_of_nonneg_right e (by positivity)

/-- The recovering algorithm answers with the message of `m'` when that of `m` is encrypted. -/
def recovers (S : Pke) (M : Bytes 32 → List Byte) {Ω : Type} (R : Ω → List Byte → List Byte → List Byte) (ω : Ω) (r1 r2 e m m' : Bytes 32) : Prop :=
  R ω (S.realKey r1 r2) (S.enc (M m) (List.ofFn e) (S.realKey r1 r2)) = M m'

theorem keyWins_true (S : Pke) (M : Bytes 32 → List Byte) {Ω : Type} (R : Ω → List Byte → List Byte → List Byte) (ω : Ω) (r1 r2 e m0 m1 : Bytes 32) :
    keyWins S (recoverAttacker M R) (ω, m0, m1) r1 r2 e true ↔ recovers S M R ω r1 r2 e m1 m1 := decide_eq_true_iff

theorem keyWins_false (S : Pke) (M : Bytes 32 → List Byte) {Ω : Type} (R : Ω → List Byte → List Byte → List Byte) (ω : Ω) (r1 r2 e m0 m1 : Bytes 32) :
    keyWins S (recoverAttacker M R) (ω, m0, m1) r1 r2 e false ↔ ¬ recovers S M R ω r1 r2 e m0 m1 := decide_eq_false_iff_not

/-- The game in terms of the events that a random message is recovered, and that another random message is hit. -/
theorem game_split {Ω B : Type} [Fintype Ω] [Nonempty Ω] [Fintype B] [Nonempty B] (K : (Ω × B × B) → B → B → B → Bool → Prop)
    (r : Ω → B → B → B → B → B → Prop)
    (ht : ∀ ω r1 r2 e m0 m1, K (ω, m0, m1) r1 r2 e true ↔ r ω r1 r2 e m1 m1) (hf : ∀ ω r1 r2 e m0 m1, K (ω, m0, m1) r1 r2 e false ↔ ¬ r ω r1 r2 e m0 m1) :
    fraction (fun d : (Ω × B × B) × B × B × B × Bool => K d.1 d.2.1 d.2.2.1 d.2.2.2.1 d.2.2.2.2) =
      (fraction (fun d : Ω × B × B × B × B => r d.1 d.2.1 d.2.2.1 d.2.2.2.1 d.2.2.2.2 d.2.2.2.2) +
        (1 - fraction (fun y : (Ω × B × B × B × B) × B => r y.1.1 y.1.2.1 y.1.2.2.1 y.1.2.2.2.1 y.1.2.2.2.2 y.2))) / 2 := by
  let e : ((Ω × B × B) × B × B × B × Bool) ≃ ((Ω × B × B) × B × B × B) × Bool := {
    toFun d := ((d.1, d.2.1, d.2.2.1, d.2.2.2.1), d.2.2.2.2)
    invFun x := (x.1.1, x.1.2.1, x.1.2.2.1, x.1.2.2.2, x.2)
    left_inv d := rfl
    right_inv x := rfl }
  have e1 := fraction_equiv e fun x => K x.1.1 x.1.2.1 x.1.2.2.1 x.1.2.2.2 x.2
  have e1' := fraction_bool (fun (x : (Ω × B × B) × B × B × B) b => K x.1 x.2.1 x.2.2.1 x.2.2.2 b)
  refine (e1.trans e1').trans ?_
  -- the encrypted message is the second
  let f1 : ((Ω × B × B) × B × B × B) ≃ (Ω × B × B × B × B) × B := {
    toFun x := ((x.1.1, x.2.1, x.2.2.1, x.2.2.2, x.1.2.2), x.1.2.1)
    invFun y := ((y.1.1, y.2, y.1.2.2.2.2), y.1.2.1, y.1.2.2.1, y.1.2.2.2.1)
    left_inv x := rfl
    right_inv y := rfl }
  have e2 : fraction (fun x : (Ω × B × B) × B × B × B => K x.1 x.2.1 x.2.2.1 x.2.2.2 true) =
      fraction (fun d : Ω × B × B × B × B => r d.1 d.2.1 d.2.2.1 d.2.2.2.1 d.2.2.2.2 d.2.2.2.2) := by
    rw [← fraction_fst (Ω' := B) (fun d : Ω × B × B × B × B => r d.1 d.2.1 d.2.2.1 d.2.2.2.1 d.2.2.2.2 d.2.2.2.2), ← fraction_equiv f1]
    exact fraction_congr fun x => ht x.1.1 x.2.1 x.2.2.1 x.2.2.2 x.1.2.1 x.1.2.2
  -- the encrypted message is the first
  let f0 : ((Ω × B × B) × B × B × B) ≃ (Ω × B × B × B × B) × B := {
    toFun x := ((x.1.1, x.2.1, x.2.2.1, x.2.2.2, x.1.2.1), x.1.2.2)
    invFun y := ((y.1.1, y.1.2.2.2.2, y.2), y.1.2.1, y.1.2.2.1, y.1.2.2.2.1)
    left_inv x := rfl
    right_inv y := rfl }
  have e3 : fraction (fun x : (Ω × B × B) × B × B × B => K x.1 x.2.1 x.2.2.1 x.2.2.2 false) =
      1 - fraction (fun y : (Ω × B × B × B × B) × B => r y.1.1 y.1.2.1 y.1.2.2.1 y.1.2.2.2.1 y.1.2.2.2.2 y.2) := by
    rw [← fraction_not, ← fraction_equiv f0]
    exact fraction_congr fun x => hf x.1.1 x.2.1 x.2.2.1 x.2.2.2 x.1.2.1 x.1.2.2
  rw [e2, e3]

theorem oneway_bound (S : Pke) (hq : S.eq = 12 ∨ S.eq = 13) (hT : S.eT ≤ 7) (M : Bytes 32 → List Byte) (γ : ℚ) (hγ : ∀ w, fraction (fun u => M u = w) ≤ γ)
    {Ω : Type} [Fintype Ω] [Nonempty Ω] (R : Ω → List Byte → List Byte → List Byte)
    (W : Ω → Bytes 32 → Bytes 32 → Bytes 32 → Bytes 32 → Prop) (h : ∀ ω r1 r2 e m, W ω r1 r2 e m ↔ recovers S M R ω r1 r2 e m m) :
    fraction (fun d : Ω × Bytes 32 × Bytes 32 × Bytes 32 × Bytes 32 => W d.1 d.2.1 d.2.2.1 d.2.2.2.1 d.2.2.2.2) ≤
      γ + 2 * (keyAdvantage S (keyAttack S (recoverAttacker M R)) + encAdvantage S (encAttack S (recoverAttacker M R))) := by
  have g := game_bound S hq hT (recoverAttacker M R) _ fun ω r1 r2 e b => Iff.rfl
  have s := game_split (keyWins S (recoverAttacker M R)) (recovers S M R) (fun ω r1 r2 e m0 m1 => keyWins_true S M R ω r1 r2 e m0 m1)
    (fun ω r1 r2 e m0 m1 => keyWins_false S M R ω r1 r2 e m0 m1)
  have e4 := fraction_hit (W := Bytes 32) (fun (y : Ω × Bytes 32 × Bytes 32 × Bytes 32 × Bytes 32) w =>
      recovers S M R y.1 y.2.1 y.2.2.1 y.2.2.2.1 y.2.2.2.2 w) γ fun y => by
    refine le_of_eq_of_le (fraction_congr fun w => ?_) (hγ (R y.1 (S.realKey y.2.1 y.2.2.1) (S.enc (M y.2.2.2.2) (List.ofFn y.2.2.2.1) (S.realKey y.2.1 y.2.2.1))))
    exact eq_comm
  have e : (fun d : Ω × Bytes 32 × Bytes 32 × Bytes 32 × Bytes 32 => W d.1 d.2.1 d.2.2.1 d.2.2.2.1 d.2.2.2.2) =
      fun d => recovers S M R d.1 d.2.1 d.2.2.1 d.2.2.2.1 d.2.2.2.2 d.2.2.2.2 := by
    funext d
    exact propext (h _ _ _ _ _)
  rw [e]
  have g := (le_abs_self _).trans g
  rw [s] at g
  generalize keyAdvantage S (keyAttack S (recoverAttacker M R)) = A at *
  generalize encAdvantage S (encAttack S (recoverAttacker M R)) = B at *
  linarith

end Saber.Hiding
