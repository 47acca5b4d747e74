import Verif.Proof.M4.PolyMul
import Verif.Spec.M4Lib
import Verif.Proof.Indcpa
/-!
# Cortex-M4: the contracts of the multiplication routines, and signed overflow in the interpolation
-/
namespace Saber.M4
open Polynomial

theorem Toom.Correct.ok {toom : Toom} (h : toom.Correct) : ToomOk toom := by
  intro a b res ha hb hr
  obtain ⟨b', res', h1, h2, h3, h4⟩ := h a b res ha hb hr
  exact ⟨_, h1, h2, h3, h4⟩

theorem ToomOk.correct {toom : Toom} (h : ToomOk toom) : toom.Correct := by
  intro a b res ha hb hr
  obtain ⟨r, h1, h2, h3, h4⟩ := h a b res ha hb hr
  exact ⟨r.1, r.2, h1, h2, h3, h4⟩

/-- The coefficients of a product modulo `Y^64+1`. -/
theorem nega64 (a b : List R16) (k : Nat) (hk : k < 64) :
    (S a 0 64 * S b 0 64).coeff k - (S a 0 64 * S b 0 64).coeff (k + 64) = u16 (negMul64 (vals a) (vals b) k) := by
  have e : S a 0 64 * S b 0 64 = ∑ i ∈ Finset.range 64, C (a.getD i 0) * X ^ i * S b 0 64 := by
    rw [← Finset.sum_mul]; simp only [S, Nat.zero_add]
  have u (x : Int) : u16 x = ((x : Int) : R16) := rfl
  have hr (x : R16) : ((x.toNat : Int) : R16) = x := by rw [← u]; exact u16_prom x
  rw [e, finsetSum_coeff, finsetSum_coeff, ← Finset.sum_sub_distrib, negMul64, u, Int.cast_sum]
  refine Finset.sum_congr rfl fun i hi => ?_
  rw [Finset.mem_range] at hi
  rw [mul_assoc, coeff_C_mul, coeff_C_mul, coeff_X_pow_mul', coeff_X_pow_mul', S_coeff, S_coeff]
  by_cases h : i ≤ k
  · rw [if_pos h, if_pos (show i ≤ k + 64 by omega), if_pos (show k - i < 64 by omega), if_neg (show ¬ k + 64 - i < 64 by omega),
      mul_zero, sub_zero, if_pos h, Nat.zero_add]
    simp only [vals]
    rw [Int.cast_mul, hr, hr]
  · rw [if_neg h, if_pos (show i ≤ k + 64 by omega), if_pos (show k + 64 - i < 64 by omega), mul_zero, zero_sub, if_neg h, Nat.zero_add,
      Nat.add_comm k 64]
    simp only [vals]
    rw [Int.cast_neg, Int.cast_mul, hr, hr]

theorem Kara.Correct.ok {kara : Kara} (h : kara.Correct) : KaraOk kara := by
  intro k ha hb hr ht
  obtain ⟨r, h1, h2, h3, h4, h5, h6⟩ := h k ha hb hr ht
  refine ⟨r, h1, h2, h3, h4, h5, fun i hi => ?_⟩
  rw [nega64 _ _ _ hi]
  have := h6 i hi
  apply BitVec.eq_of_toNat_eq
  have e : ((u16 (negMul64 (vals k.a) (vals k.b) i)).toNat : Int) = negMul64 (vals k.a) (vals k.b) i % 65536 := u16_mod _
  rw [← e] at this
  unfold vals at this
  exact Int.ofNat.inj this

theorem KaraOk.correct {kara : Kara} (h : KaraOk kara) : kara.Correct := by
  intro k ha hb hr ht
  obtain ⟨r, h1, h2, h3, h4, h5, h6⟩ := h k ha hb hr ht
  refine ⟨r, h1, h2, h3, h4, h5, fun i hi => ?_⟩
  have := h6 i hi
  rw [nega64 _ _ _ hi] at this
  unfold vals
  rw [this]
  exact u16_mod _

/-! ### Overflow -/

/-- The polynomial `X^n` as an array. -/
def monomial (n : Nat) : List (BitVec 16) := (List.replicate 256 0).set n 1

theorem getD_repl (k : Nat) : (List.replicate 256 (0 : BitVec 16)).getD k 0 = 0 := by
  generalize (256 : Nat) = n
  rw [List.getD_eq_getElem?_getD, List.getElem?_replicate]
  split <;> rfl

theorem length_monomial (n : Nat) : (monomial n).length = 256 := by
  unfold monomial
  rw [List.length_set, List.length_replicate]

theorem S4_monomial (n r : Nat) (hn : n < 4) (hr : r < 4) : S4 (monomial n) r = if r = n then 1 else 0 := by
  ext1 k
  by_cases hk : k < 64
  · rw [S4_coeff _ _ _ hk]
    unfold monomial
    rw [getD_set]
    simp only [List.length_replicate]
    by_cases h : r = n
    · subst h
      rw [if_pos rfl, coeff_one]
      by_cases h0 : k = 0
      · rw [if_pos ⟨by omega, by omega⟩, if_pos h0]
      · rw [if_neg (by omega), if_neg h0]
        exact getD_repl _
    · rw [if_neg h, if_neg (by omega), coeff_zero]
      exact getD_repl _
  · rw [Deg.S4 _ _ k (by omega)]
    split
    · rw [coeff_one, if_neg (by omega)]
    · rw [coeff_zero]

theorem loop_error {σ : Type} (n : Nat) (s : σ) (body : Nat → σ → CM σ) (e : UB) (h : body 0 s = .error e) :
    loop (n + 1) s body = .error e := by
  induction n with
  | zero =>
    show (do let s' ← loop 0 s body; body 0 s') = _
    exact h
  | succ n ih =>
    show (do let s' ← loop (n + 1) s body; body (n + 1) s') = _
    rw [ih]; rfl

theorem interp_strict : interp .strict 0 8 1 (-1) 8 (-8) 0 = .error .signedOverflow := rfl

/-- With the arithmetic of the C standard the product of `X^3` and `1` has undefined behaviour. -/
theorem toom_strict {kara : Kara} (hk : KaraOk kara) (res : List R16) :
    toom_cook_4way_striding .strict kara (monomial 3) (monomial 0) res = .error .signedOverflow := by
  obtain ⟨r, h1, h2⟩ := strdProds_ok hk (monomial 3) (monomial 0) (length_monomial _) (length_monomial _)
  unfold toom_cook_4way_striding
  rw [h1, ok_bind]
  dsimp only
  have l1 := h2.lb
  have l2 := h2.ls
  have e1' := S_getD _ 0 h2.e1 0 (by omega)
  have : interpStep .strict r.1 r.2 0 ⟨res, junk 16 121 0, junk 16 121 1, junk 16 121 2⟩ = .error .signedOverflow := by
    unfold interpStep
    rw [rd_ok 0 (by omega), ok_bind, rd_ok 0 (by omega), ok_bind, rd_ok 0 (by omega), ok_bind, rd_ok 0 (by omega), ok_bind,
      rd_ok 0 (by omega), ok_bind, rd_ok 0 (by omega), ok_bind, rd_ok 0 (by omega), ok_bind,
      S_getD r.1 64 h2.e0 0 (by omega), e1', S_getD r.2 _ h2.e2 0 (by omega), S_getD r.2 _ h2.e3 0 (by omega),
      S_getD r.2 _ h2.e4 0 (by omega), S_getD r.2 _ h2.e5 0 (by omega), S_getD r.2 _ h2.e6 0 (by omega)]
    simp only [S4_monomial 3 0 (by omega) (by omega), S4_monomial 3 1 (by omega) (by omega), S4_monomial 3 2 (by omega) (by omega),
      S4_monomial 3 3 (by omega) (by omega), S4_monomial 0 0 (by omega) (by omega), S4_monomial 0 1 (by omega) (by omega),
      S4_monomial 0 2 (by omega) (by omega), S4_monomial 0 3 (by omega) (by omega), if_true, show ¬ (0 = 3) by decide, show ¬ (1 = 3) by decide,
      show ¬ (2 = 3) by decide, show ¬ (1 = 0) by decide, show ¬ (2 = 0) by decide, show ¬ (3 = 0) by decide, if_false]
    simp only [nega_coeff _ 0 (by omega), mul_zero, add_zero, zero_add, mul_one, sub_zero, zero_sub, coeff_zero, coeff_neg,
      coeff_ofNat_zero, coeff_one]
    have n8 : (8 : R16[X]).coeff 64 = 0 := by
      rw [show (8 : R16[X]) = C 8 from rfl, coeff_C, if_neg (by omega)]
    simp only [n8, if_true, show ¬ (64 = 0) by decide, if_false, sub_zero, neg_zero]
    rw [interp_strict]
    rfl
  rw [loop_error 63 _ _ _ this]
  rfl

/-! ### Instances -/

/-- A library made of the functions of the reference implementation. -/
def refLib : Fips202Lib where
  Ctx := List Byte × Nat
  shake128 := Saber.shake128
  sha3_256 := Saber.sha3_256
  sha3_512 := Saber.sha3_512
  inc_init := .ok ([], 0)
  inc_absorb c inp off len := .ok (c.1 ++ (inp.drop off).take len, 0)
  inc_finalize c := .ok c
  inc_squeeze out off len c := .ok (writeAt out off ((Spec.Keccak.shake128 c.1 (c.2 + len)).drop c.2), (c.1, c.2 + len))

theorem refLib_correct : refLib.Correct :=
  ⟨fun M n c => c = (M, n), {
    shake128 := fun out outOff outlen inp inOff inlen h1 h2 => shake128_ok out outOff outlen inp inOff inlen h1 h2
    sha3_256 := fun out outOff inp inOff inlen h1 h2 => sha3_256_ok out outOff inp inOff inlen h1 h2
    sha3_512 := fun out outOff inp inOff inlen h1 h2 => sha3_512_ok out outOff inp inOff inlen h1 h2
    absorb := fun inp inOff inlen _ => ⟨_, _, _, rfl, rfl, rfl, rfl⟩
    squeeze := fun M n c out outOff outlen h _ => by subst h; exact ⟨_, rfl, rfl⟩ }⟩

/-- A routine that stores the product modulo `Y^64+1`. -/
def refKara : Kara := fun k => .ok { k with res := (List.range 64).map fun i => u16 (negMul64 (vals k.a) (vals k.b) i) }

theorem refKara_correct : refKara.Correct := by
  intro k ha hb hr ht
  refine ⟨_, rfl, ha, hb, by simp, ht, fun i hi => ?_⟩
  unfold vals
  dsimp only
  rw [getD_map_range _ _ _ _ hi]
  exact u16_mod _

/-- The striding multiplication with this routine. -/
theorem refToom_correct : Toom.Correct (toom_cook_4way_striding .wrap refKara) := (toom_striding_ok refKara_correct.ok).correct

end Saber.M4
