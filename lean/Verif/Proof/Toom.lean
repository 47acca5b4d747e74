import Verif.Proof.Kara
import Verif.Spec.Ring
import Verif.Proof.Bits
import Mathlib.Data.ZMod.Basic
/-!
# `toom_cook_4way` and `poly_mul_acc` are correct modulo `2^13`
-/
namespace Saber
open Polynomial

theorem ckInt_ok {x : Int} (h : -2147483648 ≤ x ∧ x ≤ 2147483647) : ckInt x = .ok x := if_pos h
theorem iadd_ok {a b : Int} (h : -2147483648 ≤ a + b ∧ a + b ≤ 2147483647) : iadd a b = .ok (a + b) := ckInt_ok h
theorem isub_ok {a b : Int} (h : -2147483648 ≤ a - b ∧ a - b ≤ 2147483647) : isub a b = .ok (a - b) := ckInt_ok h
theorem imul_ok {a b : Int} (h : -2147483648 ≤ a * b ∧ a * b ≤ 2147483647) : imul a b = .ok (a * b) := ckInt_ok h
theorem ishl_ok {a : Int} {k : Nat} (h : 0 ≤ a ∧ a * 2 ^ k ≤ 2147483647) (hk : k < 32) :
    ishl a k = .ok (a * 2 ^ k) := if_pos ⟨h.1, h.2, hk⟩

theorem prom16 (x : R16) : 0 ≤ prom x ∧ prom x < 65536 := by
  have := x.isLt
  simp only [prom]; omega

theorem u16_prom (x : R16) : u16 (prom x) = x := by simp [u16, prom]
theorem u16_add (a b : Int) : u16 (a + b) = u16 a + u16 b := by simp [u16, BitVec.ofInt_add]
theorem u16_mul (a b : Int) : u16 (a * b) = u16 a * u16 b := by simp [u16, BitVec.ofInt_mul]
theorem u16_neg (a : Int) : u16 (-a) = - u16 a := by simp [u16, BitVec.ofInt_neg]
theorem u16_sub (a b : Int) : u16 (a - b) = u16 a - u16 b := by rw [Int.sub_eq_add_neg, u16_add, u16_neg, sub_eq_add_neg]

theorem prom_u16 (x : Int) : prom (u16 x) = x % 65536 := by
  simp only [prom, u16, BitVec.toNat_ofInt]
  omega

theorem u16_eq_iff (x y : Int) : u16 x = u16 y ↔ x % 65536 = y % 65536 := by
  rw [← prom_u16, ← prom_u16]
  constructor
  · intro h; rw [h]
  · intro h; rw [← u16_prom (u16 x), h, u16_prom]

theorem toomEval_ok (r0 r1 r2 r3 : R16) : toomEval r0 r1 r2 r3 = .ok
    { w1 := r3, w2 := r0 + 2 * r1 + 4 * r2 + 8 * r3, w3 := r0 + r1 + r2 + r3, w4 := r0 - r1 + r2 - r3,
      w5 := 8 * r0 + 4 * r1 + 2 * r2 + r3, w6 := 8 * r0 - 4 * r1 + 2 * r2 - r3, w7 := r0 } := by
  have h0 := prom16 r0; have h1 := prom16 r1; have h2 := prom16 r2; have h3 := prom16 r3
  have p (x : Int) := prom16 (u16 x)
  unfold toomEval
  have a1 := p (prom r0 + prom r2)
  have a2 := p (prom r1 + prom r3)
  have a3 := p ((prom r0 * 2 ^ 2 + prom r2) * 2 ^ 1)
  have a4 := p (prom r1 * 2 ^ 2 + prom r3)
  dsimp only
  rw [iadd_ok (by omega), ok_bind]
  rw [iadd_ok (by omega), ok_bind]
  rw [iadd_ok (by omega), ok_bind]
  rw [isub_ok (by omega), ok_bind]
  rw [ishl_ok (by omega) (by omega), ok_bind]
  rw [iadd_ok (by omega), ok_bind]
  rw [ishl_ok (by omega) (by omega), ok_bind]
  rw [ishl_ok (by omega) (by omega), ok_bind]
  rw [iadd_ok (by omega), ok_bind]
  rw [iadd_ok (by omega), ok_bind]
  rw [isub_ok (by omega), ok_bind]
  rw [ishl_ok (by omega) (by omega), ok_bind]
  rw [ishl_ok (by omega) (by omega), ok_bind]
  rw [iadd_ok (by omega), ok_bind]
  rw [ishl_ok (by omega) (by omega), ok_bind]
  rw [iadd_ok (by omega), ok_bind]
  rw [iadd_ok (by omega), ok_bind]
  have n1 : u16 2 = 2 := by decide
  simp only [u16_add, u16_sub, u16_mul, u16_prom, pow_succ, pow_zero, one_mul, n1, pure_eq_ok]
  congr 2 <;> ring

theorem mulShift_mod {t c : Int} {inv : R16} {m k e : Nat} (hk : k ≤ 3) (he : e = 15 ∨ e = 16)
    (h : ∃ z, t = m * 2 ^ k * c + 2 ^ e * z) (hm : m * inv.toNat % 65536 = 1) :
    ∃ z, prom (mulShift t inv k) = c + 2 ^ (e - k) * z := by
  obtain ⟨z, rfl⟩ := h
  obtain ⟨q, hq⟩ : ∃ q : Int, (m : Int) * (inv.toNat : Int) = 1 + 2 ^ e * q := by
    obtain ⟨q, hq⟩ : ∃ q : Int, (m : Int) * (inv.toNat : Int) = 1 + 65536 * q := by
      refine ⟨((m * inv.toNat / 65536 : Nat) : Int), ?_⟩
      have := Nat.div_add_mod (m * inv.toNat) 65536
      rw [hm] at this
      have h2 : ((m * inv.toNat : Nat) : Int) = ((65536 * (m * inv.toNat / 65536) + 1 : Nat) : Int) := by rw [this]
      rw [Nat.cast_mul] at h2
      rw [h2]; push_cast; ring
    rcases he with rfl | rfl
    · exact ⟨2 * q, by rw [hq]; ring⟩
    · exact ⟨q, by rw [hq]; ring⟩
  have hi : inv.toNat < 65536 := inv.isLt
  have e1 : prom (mulShift ((m : Int) * 2 ^ k * c + 2 ^ e * z) inv k)
      = (((m : Int) * 2 ^ k * c + 2 ^ e * z) % 4294967296 * inv.toNat % 4294967296) / 2 ^ k % 65536 := by
    simp only [prom, mulShift, u32, BitVec.toNat_setWidth, BitVec.toNat_ushiftRight, BitVec.toNat_mul, BitVec.toNat_ofInt,
      Nat.shiftRight_eq_div_pow]
    push_cast
    have : (((m : Int) * 2 ^ k * c + 2 ^ e * z) % 4294967296).toNat = (((m : Int) * 2 ^ k * c + 2 ^ e * z) % 4294967296) := by
      omega
    rw [this, Int.emod_eq_of_lt (b := 4294967296) (a := (inv.toNat : Int)) (by omega) (by omega)]
  rw [e1, Int.mul_emod (_ % _), Int.emod_emod, ← Int.mul_emod]
  have e2 : ((m : Int) * 2 ^ k * c + 2 ^ e * z) * inv.toNat = 2 ^ k * c + 2 ^ e * (q * 2 ^ k * c + z * inv.toNat) := by
    linear_combination 2 ^ k * c * hq
  rw [e2]
  generalize q * 2 ^ k * c + z * inv.toNat = y
  rcases he with rfl | rfl <;> interval_cases k <;> norm_num
  all_goals
    first
    | (refine ⟨((c % 65536 + 32768 * y) % 65536 - c) / 32768, ?_⟩; omega)
    | (refine ⟨((c % 65536 + 16384 * y) % 65536 - c) / 16384, ?_⟩; omega)
    | (refine ⟨((c % 65536 + 8192 * y) % 65536 - c) / 8192, ?_⟩; omega)
    | (refine ⟨((c % 65536 + 4096 * y) % 65536 - c) / 4096, ?_⟩; omega)
    | (refine ⟨-(c/65536), ?_⟩; omega)

theorem u16_spec (x : Int) : ∃ z, prom (u16 x) = x + 65536 * z ∧ 0 ≤ prom (u16 x) ∧ prom (u16 x) < 65536 := by
  refine ⟨-(x / 65536), ?_⟩
  have := prom_u16 x
  omega

/-- Interpolation: if the seven inputs are the values of `c0 + c1 X + ... + c6 X^6` at the seven points, up to multiples
of `2^16`, the outputs are `c0..c6` up to multiples of `2^13`, and there is no signed overflow. -/
theorem toomInterp_ok (c0 c1 c2 c3 c4 c5 c6 : Int) (r0 r1 r2 r3 r4 r5 r6 : R16)
    (h0 : ∃ z, prom r0 = c6 + 65536 * z)
    (h1 : ∃ z, prom r1 = c0 + 2 * c1 + 4 * c2 + 8 * c3 + 16 * c4 + 32 * c5 + 64 * c6 + 65536 * z)
    (h2 : ∃ z, prom r2 = c0 + c1 + c2 + c3 + c4 + c5 + c6 + 65536 * z)
    (h3 : ∃ z, prom r3 = c0 - c1 + c2 - c3 + c4 - c5 + c6 + 65536 * z)
    (h4 : ∃ z, prom r4 = 64 * c0 + 32 * c1 + 16 * c2 + 8 * c3 + 4 * c4 + 2 * c5 + c6 + 65536 * z)
    (h5 : ∃ z, prom r5 = 64 * c0 - 32 * c1 + 16 * c2 - 8 * c3 + 4 * c4 - 2 * c5 + c6 + 65536 * z)
    (h6 : ∃ z, prom r6 = c0 + 65536 * z) :
    Ok (toomInterp r0 r1 r2 r3 r4 r5 r6) fun o =>
      (∃ z, prom o.w1 = c0 + 8192 * z) ∧ (∃ z, prom o.w2 = c1 + 8192 * z) ∧ (∃ z, prom o.w3 = c2 + 8192 * z) ∧
      (∃ z, prom o.w4 = c3 + 8192 * z) ∧ (∃ z, prom o.w5 = c4 + 8192 * z) ∧ (∃ z, prom o.w6 = c5 + 8192 * z) ∧
      (∃ z, prom o.w7 = c6 + 8192 * z) := by
  have b0 := prom16 r0; have b1 := prom16 r1; have b2 := prom16 r2; have b3 := prom16 r3
  have b4 := prom16 r4; have b5 := prom16 r5; have b6 := prom16 r6
  obtain ⟨z0, h0⟩ := h0; obtain ⟨z1, h1⟩ := h1; obtain ⟨z2, h2⟩ := h2; obtain ⟨z3, h3⟩ := h3
  obtain ⟨z4, h4⟩ := h4; obtain ⟨z5, h5⟩ := h5; obtain ⟨z6, h6⟩ := h6
  unfold toomInterp
  dsimp only
  rw [iadd_ok (by omega), ok_bind]
  obtain ⟨y1, e1⟩ := u16_spec (prom r1 + prom r4)
  generalize u16 (prom r1 + prom r4) = s1 at *
  rw [isub_ok (by omega), ok_bind]
  obtain ⟨y2, e2⟩ := u16_spec (prom r5 - prom r4)
  generalize u16 (prom r5 - prom r4) = s5 at *
  rw [isub_ok (by omega), ok_bind]
  have f3 : ∃ y, prom (u16 (isar (prom r3 - prom r2) 1)) = -(c1 + c3 + c5) + 32768 * y := by
    obtain ⟨y, e⟩ := u16_spec (isar (prom r3 - prom r2) 1)
    rw [e.1]
    unfold isar
    exact ⟨z3 - z2 + 2 * y, by omega⟩
  obtain ⟨y3, e3⟩ := f3
  have b3' := prom16 (u16 (isar (prom r3 - prom r2) 1))
  generalize u16 (isar (prom r3 - prom r2) 1) = s3 at *
  rw [isub_ok (by omega), ok_bind]
  obtain ⟨y4, e4⟩ := u16_spec (prom r4 - prom r0)
  generalize u16 (prom r4 - prom r0) = s4 at *
  rw [ishl_ok (by omega) (by omega), ok_bind, isub_ok (by omega), ok_bind]
  obtain ⟨y5, e5⟩ := u16_spec (prom s4 - prom r6 * 2 ^ 6)
  generalize u16 (prom s4 - prom r6 * 2 ^ 6) = t4 at *
  rw [ishl_ok (by omega) (by omega), ok_bind, iadd_ok (by omega), ok_bind]
  obtain ⟨y6, e6⟩ := u16_spec (prom t4 * 2 ^ 1 + prom s5)
  generalize u16 (prom t4 * 2 ^ 1 + prom s5) = v4 at *
  rw [iadd_ok (by omega), ok_bind]
  obtain ⟨y7, e7⟩ := u16_spec (prom r2 + prom s3)
  generalize u16 (prom r2 + prom s3) = s2 at *
  rw [ishl_ok (by omega) (by omega), ok_bind, isub_ok (by omega), ok_bind, isub_ok (by omega), ok_bind]
  obtain ⟨y8, e8⟩ := u16_spec (prom s1 - prom s2 * 2 ^ 6 - prom s2)
  generalize u16 (prom s1 - prom s2 * 2 ^ 6 - prom s2) = t1 at *
  rw [isub_ok (by omega), ok_bind]
  obtain ⟨y9, e9⟩ := u16_spec (prom s2 - prom r6)
  generalize u16 (prom s2 - prom r6) = t2 at *
  rw [isub_ok (by omega), ok_bind]
  obtain ⟨y10, e10⟩ := u16_spec (prom t2 - prom r0)
  generalize u16 (prom t2 - prom r0) = v2 at *
  rw [imul_ok (by omega), ok_bind, iadd_ok (by omega), ok_bind]
  obtain ⟨y11, e11⟩ := u16_spec (prom t1 + 45 * prom v2)
  generalize u16 (prom t1 + 45 * prom v2) = v1 at *
  rw [ishl_ok (by omega) (by omega), ok_bind, isub_ok (by omega), ok_bind]
  -- summary of the state
  have g2 : ∃ y, prom v2 = c2 + c4 + 32768 * y := ⟨2 * z2 + y3 + 2 * y7 + 2 * y9 + 2 * y10 - 2 * z6 - 2 * z0, by omega⟩
  have g1 : ∃ y, prom v1 = 34 * c1 + 16 * c3 + 34 * c5 + 32768 * y := by
    refine ⟨(prom v1 - (34 * c1 + 16 * c3 + 34 * c5)) / 32768, ?_⟩
    omega
  have f4 := mulShift_mod (t := prom v4 - prom v2 * 2 ^ 3) (c := c2) (inv := inv3) (m := 3) (k := 3) (e := 16) (by omega)
    (by omega) ⟨(prom v4 - prom v2 * 2 ^ 3 - 24 * c2) / 65536, by omega⟩ (by decide)
  obtain ⟨x4, f4⟩ := f4
  have b4' := prom16 (mulShift (prom v4 - prom v2 * 2 ^ 3) inv3 3)
  generalize mulShift (prom v4 - prom v2 * 2 ^ 3) inv3 3 = o4 at *
  rw [iadd_ok (by omega), ok_bind]
  have g5 : ∃ y, prom (u16 (prom s5 + prom v1)) = -30 * c1 + 30 * c5 + 32768 * y := by
    obtain ⟨y, e⟩ := u16_spec (prom s5 + prom v1)
    refine ⟨(prom (u16 (prom s5 + prom v1)) - (-30 * c1 + 30 * c5)) / 32768, ?_⟩
    omega
  have b5' := prom16 (u16 (prom s5 + prom v1))
  generalize u16 (prom s5 + prom v1) = t5 at *
  rw [ishl_ok (by omega) (by omega), ok_bind, iadd_ok (by omega), ok_bind]
  obtain ⟨w1, g1⟩ := g1
  obtain ⟨w2, g2⟩ := g2
  obtain ⟨w5, g5⟩ := g5
  have bv2 := prom16 v2
  clear e1 e2 e4 e5 e6 e7 e8 e9 e10 e11 h1 h2 h3 h4 h5
  have f1 := mulShift_mod (t := prom v1 + prom s3 * 2 ^ 4) (c := c1 + c5) (inv := inv9) (m := 9) (k := 1) (e := 15) (by omega)
    (by omega) ⟨(prom v1 + prom s3 * 2 ^ 4 - 18 * (c1 + c5)) / 32768, by omega⟩ (by decide)
  obtain ⟨x1, f1⟩ := f1
  have b1' := prom16 (mulShift (prom v1 + prom s3 * 2 ^ 4) inv9 1)
  generalize mulShift (prom v1 + prom s3 * 2 ^ 4) inv9 1 = o1 at *
  rw [iadd_ok (by omega), ok_bind, isub_ok (by omega), ok_bind]
  obtain ⟨y12, e12⟩ := u16_spec (0 - (prom s3 + prom o1))
  generalize u16 (0 - (prom s3 + prom o1)) = o3 at *
  rw [imul_ok (by omega), ok_bind, isub_ok (by omega), ok_bind]
  have f5 := mulShift_mod (t := 30 * prom o1 - prom t5) (c := c1) (inv := inv15) (m := 15) (k := 2) (e := 15) (by omega)
    (by omega) ⟨(30 * prom o1 - prom t5 - 60 * c1) / 32768, by omega⟩ (by decide)
  obtain ⟨x5, f5⟩ := f5
  have b5'' := prom16 (mulShift (30 * prom o1 - prom t5) inv15 2)
  generalize mulShift (30 * prom o1 - prom t5) inv15 2 = o5 at *
  rw [isub_ok (by omega), ok_bind]
  obtain ⟨y13, e13⟩ := u16_spec (prom v2 - prom o4)
  generalize u16 (prom v2 - prom o4) = o2 at *
  rw [isub_ok (by omega), ok_bind]
  obtain ⟨y14, e14⟩ := u16_spec (prom o1 - prom o5)
  generalize u16 (prom o1 - prom o5) = o1' at *
  refine Ok.pure ⟨⟨8 * z6, ?_⟩, ⟨x5, ?_⟩, ⟨x4, ?_⟩, ⟨(prom o3 - c3) / 8192, ?_⟩, ⟨(prom o2 - c4) / 8192, ?_⟩,
    ⟨(prom o1' - c5) / 8192, ?_⟩, ⟨8 * z0, ?_⟩⟩ <;> dsimp only <;> omega

/-! ### From the scalar lemma to polynomials -/

/-- Reduction `Z/2^16 → Z/2^13`. -/
def red : R16 →+* ZMod 8192 where
  toFun x := (x.toNat : ZMod 8192)
  map_one' := by decide
  map_zero' := by decide
  map_add' x y := by
    rw [BitVec.toNat_add, ← Nat.cast_add, ZMod.natCast_eq_natCast_iff']; omega
  map_mul' x y := by
    rw [BitVec.toNat_mul, ← Nat.cast_mul, ZMod.natCast_eq_natCast_iff']; omega

theorem red_prom (x : R16) : red x = ((prom x : Int) : ZMod 8192) := by simp [red, prom]

theorem red_of_prom {x y : R16} (h : ∃ z, prom x = prom y + 8192 * z) : red x = red y := by
  obtain ⟨z, h⟩ := h
  rw [red_prom, red_prom, h]
  push_cast
  have : (8192 : ZMod 8192) = 0 := by decide
  rw [this]; ring

/-- The residues modulo `2^13` of an array are the coefficients of a polynomial. -/
def ArrZ (a : List R16) (len : Nat) (p : (ZMod 8192)[X]) : Prop :=
  a.length = len ∧ ∀ k, k < len → red (a.getD k 0) = p.coeff k

theorem ArrZ.congr {a : List R16} {len : Nat} {p q : (ZMod 8192)[X]} (h : ArrZ a len p) (e : p = q) : ArrZ a len q := e ▸ h

theorem ArrZ.addTo {a : List R16} {len : Nat} {p : (ZMod 8192)[X]} (h : ArrZ a len p) {idx : Nat} (hi : idx < len) (v : R16) :
    Ok (addTo a idx v) fun a' => ArrZ a' len (p + C (red v) * X ^ idx) := by
  refine ⟨_, addTo_ok (by rw [h.1]; exact hi), by simp [h.1], fun k hk => ?_⟩
  rw [getD_set, coeff_add, coeff_C_mul_X_pow]
  by_cases e : k = idx
  · subst e; simp only [h.1, hk, and_self, if_true, map_add, h.2 k hk]
  · have e' : ¬ (idx = k ∧ idx < a.length) := by omega
    rw [if_neg e', if_neg e, h.2 k hk, add_zero]

theorem ArrZ.zero (len : Nat) : ArrZ (List.replicate len 0) len 0 := by
  refine ⟨by simp, fun k hk => ?_⟩
  simp [hk]
  exact map_zero red

/-- Seven arrays holding the evaluations of a polynomial. -/
structure EvArr (s : Ev (List R16)) (A0 A1 A2 A3 : R16[X]) (n : Nat) : Prop where
  w1 : s.w1.length = 64 ∧ ∀ k, k < n → s.w1.getD k 0 = A3.coeff k
  w2 : s.w2.length = 64 ∧ ∀ k, k < n → s.w2.getD k 0 = (A0 + 2 * A1 + 4 * A2 + 8 * A3).coeff k
  w3 : s.w3.length = 64 ∧ ∀ k, k < n → s.w3.getD k 0 = (A0 + A1 + A2 + A3).coeff k
  w4 : s.w4.length = 64 ∧ ∀ k, k < n → s.w4.getD k 0 = (A0 - A1 + A2 - A3).coeff k
  w5 : s.w5.length = 64 ∧ ∀ k, k < n → s.w5.getD k 0 = (8 * A0 + 4 * A1 + 2 * A2 + A3).coeff k
  w6 : s.w6.length = 64 ∧ ∀ k, k < n → s.w6.getD k 0 = (8 * A0 - 4 * A1 + 2 * A2 - A3).coeff k
  w7 : s.w7.length = 64 ∧ ∀ k, k < n → s.w7.getD k 0 = A0.coeff k

theorem ev_step {a : List R16} {p : R16[X]} {j : Nat} (h : a.length = 64 ∧ ∀ k, k < j → a.getD k 0 = p.coeff k) {v : R16}
    (hj : j < 64) (hv : v = p.coeff j) :
    (a.set j v).length = 64 ∧ ∀ k, k < j + 1 → (a.set j v).getD k 0 = p.coeff k := by
  refine ⟨by simp [h.1], fun k hk => ?_⟩
  rw [getD_set]
  by_cases e : j = k
  · subst e; rw [if_pos ⟨rfl, by omega⟩, hv]
  · rw [if_neg (by omega), h.2 k (by omega)]

theorem coeff_two_mul (p : R16[X]) (k : Nat) : (2 * p).coeff k = 2 * p.coeff k := coeff_ofNat_mul
theorem coeff_four_mul (p : R16[X]) (k : Nat) : (4 * p).coeff k = 4 * p.coeff k := coeff_ofNat_mul
theorem coeff_eight_mul (p : R16[X]) (k : Nat) : (8 * p).coeff k = 8 * p.coeff k := coeff_ofNat_mul

theorem toomEvalLoop_ok {a : List R16} (ha : a.length = 256) {s : Ev (List R16)}
    (h1 : s.w1.length = 64) (h2 : s.w2.length = 64) (h3 : s.w3.length = 64) (h4 : s.w4.length = 64)
    (h5 : s.w5.length = 64) (h6 : s.w6.length = 64) (h7 : s.w7.length = 64) :
    Ok (toomEvalLoop a s) fun s' => EvArr s' (S a 0 64) (S a 64 64) (S a 128 64) (S a 192 64) 64 := by
  unfold toomEvalLoop
  refine loop_inv (fun j s' => EvArr s' (S a 0 64) (S a 64 64) (S a 128 64) (S a 192 64) j) ?_ ?_
  · exact ⟨⟨h1, by omega⟩, ⟨h2, by omega⟩, ⟨h3, by omega⟩, ⟨h4, by omega⟩, ⟨h5, by omega⟩, ⟨h6, by omega⟩, ⟨h7, by omega⟩⟩
  · intro j s' hj h
    have hj' : j < 64 := hj
    have e0 : N_SB = 64 := rfl
    have c0 : a.getD j 0 = (S a 0 64).coeff j := by rw [S_coeff, if_pos hj', Nat.zero_add]
    have c1 : a.getD (64 + j) 0 = (S a 64 64).coeff j := by rw [S_coeff, if_pos hj']
    have c2 : a.getD (2 * 64 + j) 0 = (S a 128 64).coeff j := by rw [S_coeff, if_pos hj']
    have c3 : a.getD (3 * 64 + j) 0 = (S a 192 64).coeff j := by rw [S_coeff, if_pos hj']
    rw [e0, rd_ok 0 (by omega), ok_bind, rd_ok 0 (by omega), ok_bind, rd_ok 0 (by omega), ok_bind, rd_ok 0 (by omega), ok_bind,
      c0, c1, c2, c3, toomEval_ok, ok_bind]
    dsimp only
    rw [wr_ok (by have := h.w3.1; omega), ok_bind, wr_ok (by have := h.w4.1; omega), ok_bind,
      wr_ok (by have := h.w5.1; omega), ok_bind, wr_ok (by have := h.w6.1; omega), ok_bind,
      wr_ok (by have := h.w2.1; omega), ok_bind, wr_ok (by have := h.w7.1; omega), ok_bind,
      wr_ok (by have := h.w1.1; omega), ok_bind]
    refine Ok.pure ⟨ev_step h.w1 hj' rfl, ev_step h.w2 hj' ?_, ev_step h.w3 hj' ?_, ev_step h.w4 hj' ?_,
      ev_step h.w5 hj' ?_, ev_step h.w6 hj' ?_, ev_step h.w7 hj' rfl⟩ <;>
    simp only [coeff_add, coeff_sub, coeff_two_mul, coeff_four_mul, coeff_eight_mul]

theorem prom_of_eq {r : R16} {x : Int} (h : r = u16 x) : ∃ z, prom r = x + 65536 * z := by
  subst h
  obtain ⟨z, hz, _⟩ := u16_spec x
  exact ⟨z, hz⟩

theorem S_eq_of_ev {a : List R16} {p : R16[X]} (h : a.length = 64 ∧ ∀ k, k < 64 → a.getD k 0 = p.coeff k) (hp : Deg p 64) :
    S a 0 64 = p := Arr.eq_S h hp

theorem Deg.ofNat_mul {p : R16[X]} {n : Nat} (hp : Deg p n) (m : Nat) [m.AtLeastTwo] :
    Deg ((OfNat.ofNat m : R16[X]) * p) n := by
  intro k hk; rw [coeff_ofNat_mul, hp k hk, mul_zero]

theorem Deg.map {p : R16[X]} {n : Nat} (hp : Deg p n) : Deg (p.map red) n := by
  intro k hk; rw [coeff_map, hp k hk, map_zero]

theorem toom_cook_4way_ok {a b c : List R16} (ha : a.length = 256) (hb : b.length = 256) (hc : ArrZ c 512 0) :
    Ok (toom_cook_4way a b c) fun r => ArrZ r 512 ((S a 0 256 * S b 0 256).map red) := by
  unfold toom_cook_4way
  dsimp only
  refine (toomEvalLoop_ok ha (length_uninit _ _ _) (length_uninit _ _ _) (length_uninit _ _ _) (length_uninit _ _ _)
    (length_uninit _ _ _) (length_uninit _ _ _) (length_uninit _ _ _)).bind fun aw hA => ?_
  refine (toomEvalLoop_ok hb (length_uninit _ _ _) (length_uninit _ _ _) (length_uninit _ _ _) (length_uninit _ _ _)
    (length_uninit _ _ _) (length_uninit _ _ _) (length_uninit _ _ _)).bind fun bw hB => ?_
  have eA : S a 0 256 = S a 0 64 + X ^ 64 * S a 64 64 + X ^ 128 * S a 128 64 + X ^ 192 * S a 192 64 := by
    rw [show 256 = 64 + (64 + (64 + 64)) from rfl, S_add, S_add, S_add]; simp only [Nat.zero_add, Nat.reduceAdd]; ring
  have eB : S b 0 256 = S b 0 64 + X ^ 64 * S b 64 64 + X ^ 128 * S b 128 64 + X ^ 192 * S b 192 64 := by
    rw [show 256 = 64 + (64 + (64 + 64)) from rfl, S_add, S_add, S_add]; simp only [Nat.zero_add, Nat.reduceAdd]; ring
  rw [eA, eB]
  have dA0 := Deg.S a 0 64; have dA1 := Deg.S a 64 64; have dA2 := Deg.S a 128 64; have dA3 := Deg.S a 192 64
  have dB0 := Deg.S b 0 64; have dB1 := Deg.S b 64 64; have dB2 := Deg.S b 128 64; have dB3 := Deg.S b 192 64
  generalize S a 0 64 = A0 at *; generalize S a 64 64 = A1 at *
  generalize S a 128 64 = A2 at *; generalize S a 192 64 = A3 at *
  generalize S b 0 64 = B0 at *; generalize S b 64 64 = B1 at *
  generalize S b 128 64 = B2 at *; generalize S b 192 64 = B3 at *
  have z127 : (List.replicate N_SB_RES (0 : R16)).length = 127 := List.length_replicate
  refine (karatsuba_simple_ok hA.w1.1 hB.w1.1 z127).bind fun w1 k1 => ?_
  refine (karatsuba_simple_ok hA.w2.1 hB.w2.1 z127).bind fun w2 k2 => ?_
  refine (karatsuba_simple_ok hA.w3.1 hB.w3.1 z127).bind fun w3 k3 => ?_
  refine (karatsuba_simple_ok hA.w4.1 hB.w4.1 z127).bind fun w4 k4 => ?_
  refine (karatsuba_simple_ok hA.w5.1 hB.w5.1 z127).bind fun w5 k5 => ?_
  refine (karatsuba_simple_ok hA.w6.1 hB.w6.1 z127).bind fun w6 k6 => ?_
  refine (karatsuba_simple_ok hA.w7.1 hB.w7.1 z127).bind fun w7 k7 => ?_
  rw [S_eq_of_ev hA.w1 dA3, S_eq_of_ev hB.w1 dB3] at k1
  rw [S_eq_of_ev hA.w2 (((dA0.add (dA1.ofNat_mul 2)).add (dA2.ofNat_mul 4)).add (dA3.ofNat_mul 8)),
    S_eq_of_ev hB.w2 (((dB0.add (dB1.ofNat_mul 2)).add (dB2.ofNat_mul 4)).add (dB3.ofNat_mul 8))] at k2
  rw [S_eq_of_ev hA.w3 (((dA0.add dA1).add dA2).add dA3), S_eq_of_ev hB.w3 (((dB0.add dB1).add dB2).add dB3)] at k3
  rw [S_eq_of_ev hA.w4 (((dA0.sub dA1).add dA2).sub dA3), S_eq_of_ev hB.w4 (((dB0.sub dB1).add dB2).sub dB3)] at k4
  rw [S_eq_of_ev hA.w5 ((((dA0.ofNat_mul 8).add (dA1.ofNat_mul 4)).add (dA2.ofNat_mul 2)).add dA3),
    S_eq_of_ev hB.w5 ((((dB0.ofNat_mul 8).add (dB1.ofNat_mul 4)).add (dB2.ofNat_mul 2)).add dB3)] at k5
  rw [S_eq_of_ev hA.w6 ((((dA0.ofNat_mul 8).sub (dA1.ofNat_mul 4)).add (dA2.ofNat_mul 2)).sub dA3),
    S_eq_of_ev hB.w6 ((((dB0.ofNat_mul 8).sub (dB1.ofNat_mul 4)).add (dB2.ofNat_mul 2)).sub dB3)] at k6
  rw [S_eq_of_ev hA.w7 dA0, S_eq_of_ev hB.w7 dB0] at k7
  clear hA hB eA eB
  -- the seven coefficients of the product in `X^64`
  obtain ⟨C0, hC0⟩ : ∃ p, p = A0 * B0 := ⟨_, rfl⟩
  obtain ⟨C1, hC1⟩ : ∃ p, p = A0 * B1 + A1 * B0 := ⟨_, rfl⟩
  obtain ⟨C2, hC2⟩ : ∃ p, p = A0 * B2 + A1 * B1 + A2 * B0 := ⟨_, rfl⟩
  obtain ⟨C3, hC3⟩ : ∃ p, p = A0 * B3 + A1 * B2 + A2 * B1 + A3 * B0 := ⟨_, rfl⟩
  obtain ⟨C4, hC4⟩ : ∃ p, p = A1 * B3 + A2 * B2 + A3 * B1 := ⟨_, rfl⟩
  obtain ⟨C5, hC5⟩ : ∃ p, p = A2 * B3 + A3 * B2 := ⟨_, rfl⟩
  obtain ⟨C6, hC6⟩ : ∃ p, p = A3 * B3 := ⟨_, rfl⟩
  have d0 : Deg C0 127 := hC0 ▸ dA0.mul dB0
  have d1 : Deg C1 127 := hC1 ▸ (dA0.mul dB1).add (dA1.mul dB0)
  have d2 : Deg C2 127 := hC2 ▸ ((dA0.mul dB2).add (dA1.mul dB1)).add (dA2.mul dB0)
  have d3 : Deg C3 127 := hC3 ▸ (((dA0.mul dB3).add (dA1.mul dB2)).add (dA2.mul dB1)).add (dA3.mul dB0)
  have d4 : Deg C4 127 := hC4 ▸ ((dA1.mul dB3).add (dA2.mul dB2)).add (dA3.mul dB1)
  have d5 : Deg C5 127 := hC5 ▸ (dA2.mul dB3).add (dA3.mul dB2)
  have d6 : Deg C6 127 := hC6 ▸ dA3.mul dB3
  replace k1 := k1.congr hC6.symm
  replace k2 := k2.congr (q := C0 + 2 * C1 + 4 * C2 + 8 * C3 + 16 * C4 + 32 * C5 + 64 * C6)
    (by simp only [hC0, hC1, hC2, hC3, hC4, hC5, hC6]; ring)
  replace k3 := k3.congr (q := C0 + C1 + C2 + C3 + C4 + C5 + C6)
    (by simp only [hC0, hC1, hC2, hC3, hC4, hC5, hC6]; ring)
  replace k4 := k4.congr (q := C0 - C1 + C2 - C3 + C4 - C5 + C6)
    (by simp only [hC0, hC1, hC2, hC3, hC4, hC5, hC6]; ring)
  replace k5 := k5.congr (q := 64 * C0 + 32 * C1 + 16 * C2 + 8 * C3 + 4 * C4 + 2 * C5 + C6)
    (by simp only [hC0, hC1, hC2, hC3, hC4, hC5, hC6]; ring)
  replace k6 := k6.congr (q := 64 * C0 - 32 * C1 + 16 * C2 - 8 * C3 + 4 * C4 - 2 * C5 + C6)
    (by simp only [hC0, hC1, hC2, hC3, hC4, hC5, hC6]; ring)
  replace k7 := k7.congr hC0.symm
  have goalEq : (A0 + X ^ 64 * A1 + X ^ 128 * A2 + X ^ 192 * A3) * (B0 + X ^ 64 * B1 + X ^ 128 * B2 + X ^ 192 * B3)
      = C0 + X ^ 64 * C1 + X ^ 128 * C2 + X ^ 192 * C3 + X ^ 256 * C4 + X ^ 320 * C5 + X ^ 384 * C6 := by
    simp only [hC0, hC1, hC2, hC3, hC4, hC5, hC6]; ring
  rw [goalEq]
  clear goalEq hC0 hC1 hC2 hC3 hC4 hC5 hC6 dA0 dA1 dA2 dA3 dB0 dB1 dB2 dB3
  have H := loop_inv (n := N_SB_RES) (s := c) (body := fun i C => do
      let r0 ← rd w1 i
      let r1 ← rd w2 i
      let r2 ← rd w3 i
      let r3 ← rd w4 i
      let r4 ← rd w5 i
      let r5 ← rd w6 i
      let r6 ← rd w7 i
      let o ← toomInterp r0 r1 r2 r3 r4 r5 r6
      let C ← addTo C i o.w1
      let C ← addTo C (i + 64) o.w2
      let C ← addTo C (i + 128) o.w3
      let C ← addTo C (i + 192) o.w4
      let C ← addTo C (i + 256) o.w5
      let C ← addTo C (i + 320) o.w6
      addTo C (i + 384) o.w7) (fun i r => ArrZ r 512
    (trunc (C0.map red) i + X ^ 64 * trunc (C1.map red) i + X ^ 128 * trunc (C2.map red) i + X ^ 192 * trunc (C3.map red) i
      + X ^ 256 * trunc (C4.map red) i + X ^ 320 * trunc (C5.map red) i + X ^ 384 * trunc (C6.map red) i)) ?_ ?_
  · refine H.mono fun r h => h.congr ?_
    rw [show N_SB_RES = 127 from rfl, trunc_eq d0.map, trunc_eq d1.map, trunc_eq d2.map, trunc_eq d3.map, trunc_eq d4.map,
      trunc_eq d5.map, trunc_eq d6.map]
    simp only [Polynomial.map_add, Polynomial.map_mul, Polynomial.map_pow, map_X]
  · exact hc.congr (by simp [trunc_zero])
  · intro i r hi h
    have hi' : i < 127 := hi
    rw [k1.rd hi', ok_bind, k2.rd hi', ok_bind, k3.rd hi', ok_bind, k4.rd hi', ok_bind, k5.rd hi', ok_bind,
      k6.rd hi', ok_bind, k7.rd hi', ok_bind]
    have n2 : u16 2 = 2 := by decide
    have n4 : u16 4 = 4 := by decide
    have n8 : u16 8 = 8 := by decide
    have n16 : u16 16 = 16 := by decide
    have n32 : u16 32 = 32 := by decide
    have n64 : u16 64 = 64 := by decide
    refine (toomInterp_ok (prom (C0.coeff i)) (prom (C1.coeff i)) (prom (C2.coeff i)) (prom (C3.coeff i)) (prom (C4.coeff i))
      (prom (C5.coeff i)) (prom (C6.coeff i)) _ _ _ _ _ _ _ ?_ ?_ ?_ ?_ ?_ ?_ ?_).bind fun o ho => ?_
    · exact ⟨0, by omega⟩
    · apply prom_of_eq
      simp only [u16_add, u16_mul, u16_prom, coeff_add, coeff_ofNat_mul, n2, n4, n8, n16, n32, n64]
    · apply prom_of_eq
      simp only [u16_add, u16_prom, coeff_add]
    · apply prom_of_eq
      simp only [u16_add, u16_sub, u16_prom, coeff_add, coeff_sub]
    · apply prom_of_eq
      simp only [u16_add, u16_mul, u16_prom, coeff_add, coeff_ofNat_mul, n2, n4, n8, n16, n32, n64]
    · apply prom_of_eq
      simp only [u16_add, u16_sub, u16_mul, u16_prom, coeff_add, coeff_sub, coeff_ofNat_mul, n2, n4, n8, n16, n32, n64]
    · exact ⟨0, by omega⟩
    obtain ⟨o0, o1, o2, o3, o4, o5, o6⟩ := ho
    refine (h.addTo (by omega) _).bind fun r1 q1 => ?_
    refine (q1.addTo (by omega) _).bind fun r2 q2 => ?_
    refine (q2.addTo (by omega) _).bind fun r3 q3 => ?_
    refine (q3.addTo (by omega) _).bind fun r4 q4 => ?_
    refine (q4.addTo (by omega) _).bind fun r5 q5 => ?_
    refine (q5.addTo (by omega) _).bind fun r6 q6 => ?_
    refine (q6.addTo (by omega) _).mono fun r7 q7 => q7.congr ?_
    rw [red_of_prom o0, red_of_prom o1, red_of_prom o2, red_of_prom o3, red_of_prom o4, red_of_prom o5, red_of_prom o6]
    simp only [trunc_succ, coeff_map]
    ring

theorem S_map (a : List R16) (n : Nat) :
    (S a 0 n).map red = ∑ i ∈ Finset.range n, C (red (a.getD i 0)) * X ^ i := by
  simp [S, Polynomial.map_sum]

open Spec in
/-- Coefficients of the reduction modulo `X^256 + 1`. -/
theorem negacyclic_coeff (a b : List R16) (k : Fin 256) :
    ((S a 0 256 * S b 0 256).map red).coeff k.val - ((S a 0 256 * S b 0 256).map red).coeff (k.val + 256)
      = ((negMul (toP a) (toP b) k : Int) : ZMod 8192) := by
  have e : (S a 0 256 * S b 0 256).map red
      = ∑ i ∈ Finset.range 256, C (red (a.getD i 0)) * X ^ i * (S b 0 256).map red := by
    rw [Polynomial.map_mul, ← Finset.sum_mul, S_map]
  rw [e, finsetSum_coeff, finsetSum_coeff, ← Finset.sum_sub_distrib, negMul, Int.cast_sum, Finset.sum_range]
  refine Finset.sum_congr rfl fun i _ => ?_
  have hk := k.isLt
  have hi := i.isLt
  rw [mul_assoc, coeff_C_mul, coeff_C_mul, coeff_X_pow_mul', coeff_X_pow_mul', coeff_map, coeff_map, S_coeff, S_coeff]
  have hr (x : R16) : red x = ((x.toNat : Int) : ZMod 8192) := by simp [red]
  by_cases h : i ≤ k
  · have h' : i.val ≤ k.val := h
    have e1 : (k - i).val = k.val - i.val := Fin.sub_val_of_le h
    rw [if_pos h', if_pos (show i.val ≤ k.val + 256 by omega), if_pos (show k.val - i.val < 256 by omega),
      if_neg (show ¬ k.val + 256 - i.val < 256 by omega), map_zero, mul_zero, sub_zero, if_pos h, Nat.zero_add]
    simp only [toP, e1, hr]
    push_cast; ring
  · have h' : ¬ i.val ≤ k.val := h
    have e1 : (k - i).val = k.val + 256 - i.val := by
      rw [Fin.sub_def]; simp only; omega
    rw [if_neg h', if_pos (show i.val ≤ k.val + 256 by omega), if_pos (show k.val + 256 - i.val < 256 by omega),
      mul_zero, zero_sub, if_neg h, Nat.zero_add]
    simp only [toP, e1, hr]
    push_cast; ring

/-- The reduction loop of `poly_mul_acc`. -/
theorem reduceLoop_ok {c res : List R16} (hc : c.length = 512) (hr : res.length = 256) :
    Ok (loop N res fun t res => do
      let i := N + t
      let x ← rd c (i - N)
      let y ← rd c i
      addTo res (i - N) (x - y)) fun r => r.length = 256 ∧ ∀ k, k < 256 →
        r.getD k 0 = res.getD k 0 + (c.getD k 0 - c.getD (k + 256) 0) := by
  have H := loop_inv (n := N) (s := res) (body := fun t res => do
      let i := N + t
      let x ← rd c (i - N)
      let y ← rd c i
      addTo res (i - N) (x - y)) (fun i r => r.length = 256 ∧ ∀ k, k < 256 →
        r.getD k 0 = res.getD k 0 + if k < i then c.getD k 0 - c.getD (k + 256) 0 else 0) ?_ ?_
  · refine H.mono fun r h => ⟨h.1, fun k hk => ?_⟩
    rw [h.2 k hk, if_pos hk]
  · exact ⟨hr, fun k hk => by simp⟩
  · intro t r ht h
    have ht' : t < 256 := ht
    have e1 : N + t - N = t := by omega
    have e2 : N + t = t + 256 := Nat.add_comm _ _
    dsimp only
    rw [e1, e2, rd_ok 0 (by rw [hc]; omega), ok_bind, rd_ok 0 (by rw [hc]; omega), ok_bind, addTo_ok (by omega)]
    refine Ok.pure ⟨by simp [h.1], fun k hk => ?_⟩
    rw [getD_set, h.2 k hk, h.2 t ht', if_neg (Nat.lt_irrefl t)]
    by_cases hkt : t = k
    · subst hkt
      rw [if_pos ⟨rfl, by omega⟩, if_pos (by omega)]
      simp
    · rw [if_neg (by omega)]
      have : (k < t + 1) = (k < t) := by apply propext; omega
      simp only [this]

open Spec in
/-- `poly_mul_acc` adds the product in `Z[X]/(X^256+1)` to `res`, modulo `2^13`. -/
theorem poly_mul_acc_ok {a b res : List R16} (ha : a.length = 256) (hb : b.length = 256) (hr : res.length = 256) :
    Ok (poly_mul_acc a b res) fun r => r.length = 256 ∧
      ∀ k : Fin 256, toP r k % 8192 = (toP res k + negMul (toP a) (toP b) k) % 8192 := by
  unfold poly_mul_acc
  refine (toom_cook_4way_ok ha hb (ArrZ.zero 512)).bind fun c hc => ?_
  refine (reduceLoop_ok hc.1 hr).mono fun r h => ⟨h.1, fun k => ?_⟩
  have hk := k.isLt
  have e2 := congrArg red (h.2 k.val hk)
  rw [map_add, map_sub, hc.2 _ (by omega), hc.2 _ (by omega), negacyclic_coeff a b k] at e2
  have hr (x : R16) : red x = ((x.toNat : Int) : ZMod 8192) := by simp [red]
  rw [hr, hr, ← Int.cast_add] at e2
  exact (ZMod.intCast_eq_intCast_iff' _ _ 8192).1 e2

end Saber
