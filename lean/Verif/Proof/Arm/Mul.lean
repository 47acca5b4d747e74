import Verif.Proof.Arm.Kara
import Verif.Model.Arm.Toom
/-!
# The assembly of `mult_toom4_256_16.s` multiplies polynomials with 64 coefficients

One symbolic run is used for all calls, wherever the operands, the result and the stack are.
-/
namespace Saber.Arm
open Polynomial

/-- Objects: the result, the variables `y_j`, the variables `x_i`, and the stack. -/
def mulSize : Nat → Nat
  | 0 => 127
  | 1 => 64
  | 2 => 64
  | _ => 208

def mulObj : List (Nat × (Nat → Cell KH)) :=
  [(127, fun _ => .undef), (64, fun i => .half (ky i)), (64, fun i => .half (kx i)), (208, fun _ => .undef)]

def mulK : State kdom :=
  ⟨kP 0 0, kP 1 0, kP 2 0, .undef, .undef, .undef, .undef, .undef, .undef, .undef, .undef, .undef, .undef, kP 3 416, kO 14, .undef,
    kmemOf mulObj, ⟨none, none⟩⟩

/-- The terms `x_i y_{k-i}` of coefficient `k`. -/
def mulP (k : Nat) : List Nat := (List.range (min 64 (k + 1) - (k - 63))).map fun j => (k - 63 + j) + 64 * (k - (k - 63 + j))

def chkX (i : Nat) : KH → Bool
  | .x p n m => Nat.beq p (KB ^ i) && (Nat.beq n 0 && Nat.blt (m.add 1) KB)
  | _ => false

def chkY (i : Nat) : KH → Bool
  | .y p n m => Nat.beq p (KB ^ (64 * i)) && (Nat.beq n 0 && Nat.blt (m.add 1) KB)
  | _ => false

def mulFinal (s : State kdom) : Bool :=
  KM.allH s.mem 0 (fun k => chkXY (enc KB (mulP k)) (enc KB [])) 127 && (KM.allH s.mem 1 chkY 64 && (KM.allH s.mem 2 chkX 64 &&
  (isP s.sp 3 416 && (isO s.pc 14 && (isP s.r0 0 0 && (isP s.r1 1 0 && isP s.r2 2 0))))))

def mulCheck : Bool := match mulF kdom mulK with
  | none => false
  | some s => mulFinal s

theorem mulCheck_ok : mulCheck = true := by decide +kernel

theorem chkX_ok {x y o : Nat → BitVec 16} {h : BitVec 16} {k : KH} {i : Nat} (hi : i < 64)
    (hc : chkX i k = true) (hk : KRH 64 x y o h k) : h = x i := by
  cases k <;> simp only [chkX, Bool.and_eq_true, Bool.false_eq_true] at hc
  rename_i p n m
  obtain ⟨h1, h2, h3⟩ := hc
  have h1 : p = KB ^ i := Nat.beq_eq.mp h1
  have h2 : n = 0 := Nat.beq_eq.mp h2
  have h3 : m + 1 < KB := Nat.le_of_ble_eq_true h3
  have f : Form KB x (· < 64) (KB ^ i) 0 1 (x i) :=
    ⟨[i], [], by simpa using hi, by simp, by simp [enc], rfl, le_refl _, by simp, by simp [lsum]⟩
  subst h1 h2
  exact Form.unique hk f (by omega) h3

theorem chkY_ok {x y o : Nat → BitVec 16} {h : BitVec 16} {k : KH} {i : Nat}
    (hc : chkY i k = true) (hk : KRH 64 x y o h k) : h = y i := by
  cases k <;> simp only [chkY, Bool.and_eq_true, Bool.false_eq_true] at hc
  rename_i p n m
  obtain ⟨h1, h2, h3⟩ := hc
  have h1 : p = KB ^ (64 * i) := Nat.beq_eq.mp h1
  have h2 : n = 0 := Nat.beq_eq.mp h2
  have h3 : m + 1 < KB := Nat.le_of_ble_eq_true h3
  have f : Form KB (fun t => y (t / 64)) (fun t => t % 64 = 0) (KB ^ (64 * i)) 0 1 (y i) :=
    ⟨[64 * i], [], by simp, by simp, by simp [enc], rfl, le_refl _, by simp, by simp [lsum]⟩
  subst h1 h2
  exact Form.unique hk f (by omega) h3

/-- The polynomial with coefficients `f 0` to `f 63`. -/
noncomputable def P64 (f : Nat → R16) : R16[X] := ∑ i ∈ Finset.range 64, C (f i) * X ^ i

theorem P64_coeff (f : Nat → R16) (k : Nat) : (P64 f).coeff k = if k < 64 then f k else 0 := by
  simp only [P64, finsetSum_coeff, coeff_C_mul, coeff_X_pow, mul_ite, mul_one, mul_zero]
  rw [Finset.sum_ite_eq]
  simp

theorem mulP_sum (x y : Nat → R16) (k : Nat) (hk : k < 127) :
    lsum (fun t => x (t % 64) * y (t / 64)) (mulP k) = (P64 x * P64 y).coeff k := by
  have e : P64 x * P64 y = ∑ i ∈ Finset.range 64, C (x i) * X ^ i * P64 y := by rw [← Finset.sum_mul, P64]
  rw [e, finsetSum_coeff, lsum, mulP, List.map_map, sum_range_list]
  set L := k - 63 with hL
  set U := min 64 (k + 1) with hU
  have e1 : ∑ i ∈ Finset.range 64, (C (x i) * X ^ i * P64 y).coeff k = ∑ i ∈ Finset.Ico L U, (C (x i) * X ^ i * P64 y).coeff k := by
    symm
    refine Finset.sum_subset ?_ ?_
    · intro i hi
      have := Finset.mem_Ico.mp hi
      exact Finset.mem_range.mpr (by omega)
    · intro i hi hn
      have := Finset.mem_range.mp hi
      rw [Finset.mem_Ico] at hn
      rw [mul_assoc, coeff_C_mul, coeff_X_pow_mul', P64_coeff]
      split
      · rw [if_neg (by omega), mul_zero]
      · rw [mul_zero]
  rw [e1, Finset.sum_Ico_eq_sum_range]
  refine Finset.sum_congr rfl fun i hi => ?_
  have := Finset.mem_range.mp hi
  rw [mul_assoc, coeff_C_mul, coeff_X_pow_mul', P64_coeff, if_pos (by omega), if_pos (by omega)]
  simp only [Function.comp]
  rw [show (L + i + 64 * (k - (L + i))) % 64 = L + i by omega, show (L + i + 64 * (k - (L + i))) / 64 = k - (L + i) by omega]

/-- The behaviour of `karatsuba_64x64`, for a result, operands and stack at arbitrary places. -/
theorem mul_run_regs (s : State conc) (ob off : Nat → Nat) (n : Nat) (x y : Nat → BitVec 16)
    (h0 : s.r0 = .a (.ptr (ob 0) (2 * off 0))) (h1 : s.r1 = .a (.ptr (ob 1) (2 * off 1))) (h2 : s.r2 = .a (.ptr (ob 2) (2 * off 2)))
    (hsp : s.sp = .a (.ptr (ob 3) (416 + 2 * off 3))) (hlr : s.lr = .a (.code n))
    (hd : ∀ o o', o < o' → o' < 4 → ob o = ob o' → off o + mulSize o ≤ off o' ∨ off o' + mulSize o' ≤ off o)
    (m0 : ∀ i, i < 127 → (conc.rd s.mem (ob 0) (off 0 + i)).isSome)
    (m1 : ∀ i, i < 64 → conc.rd s.mem (ob 1) (off 1 + i) = some (.half (y i)))
    (m2 : ∀ i, i < 64 → conc.rd s.mem (ob 2) (off 2 + i) = some (.half (x i)))
    (m3 : ∀ i, i < 208 → (conc.rd s.mem (ob 3) (off 3 + i)).isSome) :
    ∃ s1, mulF conc s = some s1 ∧ s1.mem.map List.length = s.mem.map List.length ∧ s1.sp = s.sp ∧ s1.pc = .a (.code n) ∧
      s1.r0 = s.r0 ∧ s1.r1 = s.r1 ∧ s1.r2 = s.r2 ∧
      (∀ i, i < 127 → conc.rd s1.mem (ob 0) (off 0 + i) = some (.half ((P64 x * P64 y).coeff i))) ∧
      ∀ p j, ¬ (p = ob 0 ∧ off 0 ≤ j ∧ j < off 0 + 127) → ¬ (p = ob 3 ∧ off 3 ≤ j ∧ j < off 3 + 208) →
        conc.rd s1.mem p j = conc.rd s.mem p j := by
  have hc := mulCheck_ok
  unfold mulCheck at hc
  cases hk : mulF kdom mulK with
  | none => simp [hk] at hc
  | some s' =>
  simp only [hk] at hc
  let R : Sim kdom := kSim 64 (by decide) x y (fun _ => 0)
  let X : Ctx :=
    { env := fun _ => .a (.code n)
      ob := ob
      off := off
      dom := fun o i => o < 4 ∧ i < mulSize o
      inj := by
        intro o i o' i' a b e1 e2
        by_cases hlt : o < o'
        · have := hd o o' hlt b.1 e1
          omega
        · by_cases hgt : o' < o
          · have := hd o' o hgt a.1 e1.symm
            omega
          · have : o = o' := by omega
            subst this
            exact ⟨rfl, by omega⟩
      m0 := s.mem
      known := fun _ => by simp }
  have hm : R.RM X s.mem mulK.mem := by
    refine RM_of (X := X) (l := mulObj) fun o p hp => ?_
    match o with
    | 0 =>
      cases hp
      intro i hi
      have hi : i < 127 := hi
      obtain ⟨c, hc⟩ := Option.isSome_iff_exists.mp (m0 i hi)
      exact ⟨⟨by decide, hi⟩, c, hc, by cases c <;> trivial⟩
    | 1 =>
      cases hp
      intro i hi
      have hi : i < 64 := hi
      refine ⟨⟨by decide, hi⟩, _, m1 i hi, _, rfl, ?_⟩
      exact ⟨[64 * i], [], by simp, by simp, by simp [enc], rfl, le_refl _, by simp, by simp [lsum]⟩
    | 2 =>
      cases hp
      intro i hi
      have hi : i < 64 := hi
      refine ⟨⟨by decide, hi⟩, _, m2 i hi, _, rfl, ?_⟩
      exact ⟨[i], [], by simpa using hi, by simp, by simp [enc], rfl, le_refl _, by simp, by simp [lsum]⟩
    | 3 =>
      cases hp
      intro i hi
      have hi : i < 208 := hi
      obtain ⟨c, hc⟩ := Option.isSome_iff_exists.mp (m3 i hi)
      exact ⟨⟨by decide, hi⟩, c, hc, by cases c <;> trivial⟩
    | n + 4 => simp [mulObj] at hp
  have hR : R.RS X s mulK := by
    refine ⟨fun r => ?_, hm, ⟨fun b h => ?_, fun b h => ?_⟩⟩
    · cases r
      case r0 => exact h0.trans (by show _ = Val.a (.ptr (ob 0) (0 + 2 * off 0)); rw [Int.zero_add])
      case r1 => exact h1.trans (by show _ = Val.a (.ptr (ob 1) (0 + 2 * off 1)); rw [Int.zero_add])
      case r2 => exact h2.trans (by show _ = Val.a (.ptr (ob 2) (0 + 2 * off 2)); rw [Int.zero_add])
      case sp => exact hsp
      case lr => exact hlr
      all_goals trivial
    · cases h
    · cases h
  obtain ⟨s1, e1, e2⟩ := run_sim (fun _ => run_sim (fun _ => fsim_none _) 200 schoolbook_16x16) 100 karatsuba_64x64 _ _ _ hR hk
  unfold mulFinal at hc
  simp only [Bool.and_eq_true] at hc
  obtain ⟨c0, c1, c2, c3, c4, c5, c6, c7⟩ := hc
  refine ⟨s1, e1, e2.mem.len, ?_, ?_, ?_, ?_, ?_, fun i hi => ?_, fun p j hp0 hp3 => ?_⟩
  · have := e2.reg .sp
    rw [show s'.get .sp = _ from isP_eq c3] at this
    exact Eq.trans this hsp.symm
  · have := e2.reg .pc
    rw [show s'.get .pc = _ from isO_eq c4] at this
    exact this
  · have := e2.reg .r0
    rw [show s'.get .r0 = _ from isP_eq c5] at this
    exact Eq.trans this (h0.trans (by show _ = Val.a (.ptr (ob 0) (0 + 2 * off 0)); rw [Int.zero_add])).symm
  · have := e2.reg .r1
    rw [show s'.get .r1 = _ from isP_eq c6] at this
    exact Eq.trans this (h1.trans (by show _ = Val.a (.ptr (ob 1) (0 + 2 * off 1)); rw [Int.zero_add])).symm
  · have := e2.reg .r2
    rw [show s'.get .r2 = _ from isP_eq c7] at this
    exact Eq.trans this (h2.trans (by show _ = Val.a (.ptr (ob 2) (0 + 2 * off 2)); rw [Int.zero_add])).symm
  · obtain ⟨z, q1, kk, q2, q3⟩ := RM_allH e2.mem c0 hi
    have q4 := chkXY_ok (SH := 64) (x := x) (y := y) (o := fun _ => 0)
      (by rw [mulP, List.length_map, List.length_range]; omega) (by simp) q2 q3
    rw [mulP_sum x y i hi, show lsum (fun t => x (t % 64) * y (t / 64)) [] = 0 from rfl, sub_zero] at q4
    rw [← q4]
    exact q1
  · by_cases hp1 : p = ob 1 ∧ off 1 ≤ j ∧ j < off 1 + 64
    · obtain ⟨rfl, hj1, hj2⟩ := hp1
      obtain ⟨i, rfl⟩ : ∃ i, j = off 1 + i := ⟨j - off 1, by omega⟩
      have hi : i < 64 := by omega
      obtain ⟨z, q1, kk, q2, q3⟩ := RM_allH e2.mem c1 hi
      rw [m1 i hi, ← chkY_ok q2 q3]
      exact q1
    · by_cases hp2 : p = ob 2 ∧ off 2 ≤ j ∧ j < off 2 + 64
      · obtain ⟨rfl, hj1, hj2⟩ := hp2
        obtain ⟨i, rfl⟩ : ∃ i, j = off 2 + i := ⟨j - off 2, by omega⟩
        have hi : i < 64 := by omega
        obtain ⟨z, q1, kk, q2, q3⟩ := RM_allH e2.mem c2 hi
        rw [m2 i hi, ← chkX_ok hi q2 q3]
        exact q1
      · refine e2.mem.frame p j fun o i hdom ho => ?_
        have ho : ob o = p := ho
        obtain ⟨ho4, hi⟩ : o < 4 ∧ i < mulSize o := hdom
        show off o + i ≠ j
        subst ho
        match o, ho4 with
        | 0, _ => have hi : i < 127 := hi; omega
        | 1, _ => have hi : i < 64 := hi; omega
        | 2, _ => have hi : i < 64 := hi; omega
        | 3, _ => have hi : i < 208 := hi; omega

@[inherit_doc mul_run_regs]
theorem mul_run (s : State conc) (ob off : Nat → Nat) (n : Nat) (x y : Nat → BitVec 16)
    (h0 : s.r0 = .a (.ptr (ob 0) (2 * off 0))) (h1 : s.r1 = .a (.ptr (ob 1) (2 * off 1))) (h2 : s.r2 = .a (.ptr (ob 2) (2 * off 2)))
    (hsp : s.sp = .a (.ptr (ob 3) (416 + 2 * off 3))) (hlr : s.lr = .a (.code n))
    (hd : ∀ o o', o < o' → o' < 4 → ob o = ob o' → off o + mulSize o ≤ off o' ∨ off o' + mulSize o' ≤ off o)
    (m0 : ∀ i, i < 127 → (conc.rd s.mem (ob 0) (off 0 + i)).isSome)
    (m1 : ∀ i, i < 64 → conc.rd s.mem (ob 1) (off 1 + i) = some (.half (y i)))
    (m2 : ∀ i, i < 64 → conc.rd s.mem (ob 2) (off 2 + i) = some (.half (x i)))
    (m3 : ∀ i, i < 208 → (conc.rd s.mem (ob 3) (off 3 + i)).isSome) :
    ∃ s1, mulF conc s = some s1 ∧ s1.mem.map List.length = s.mem.map List.length ∧ s1.sp = s.sp ∧ s1.pc = .a (.code n) ∧
      (∀ i, i < 127 → conc.rd s1.mem (ob 0) (off 0 + i) = some (.half ((P64 x * P64 y).coeff i))) ∧
      ∀ p j, ¬ (p = ob 0 ∧ off 0 ≤ j ∧ j < off 0 + 127) → ¬ (p = ob 3 ∧ off 3 ≤ j ∧ j < off 3 + 208) →
        conc.rd s1.mem p j = conc.rd s.mem p j := by
  obtain ⟨s1, k1, k2, k3, k4, -, -, -, k5⟩ := mul_run_regs s ob off n x y h0 h1 h2 hsp hlr hd m0 m1 m2 m3
  exact ⟨s1, k1, k2, k3, k4, k5⟩

end Saber.Arm
