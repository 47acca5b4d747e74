import Verif.Proof.Toom
/-!
# A product that is wrong at bit 13
-/
namespace Saber
open Polynomial

/-- The polynomial `1`. -/
def precA : List (BitVec 16) := 1 :: List.replicate 255 0
/-- The polynomial `-3 (1 + X^64 + X^128 + X^192)`. -/
def precB : List (BitVec 16) := (List.range 256).map fun i => if i % 64 = 0 then 65533 else 0

theorem getD_replicate_zero (n k : Nat) : (List.replicate n (0 : R16)).getD k 0 = 0 := by
  rw [List.getD_eq_getElem?_getD, List.getElem?_replicate]
  split <;> rfl

/-- 512 zeros -/
def precZ : List (BitVec 16) := List.replicate 512 0

/-- 126 zeros after a value -/
def precW (v : BitVec 16) : List (BitVec 16) := v :: List.replicate 126 0

theorem S_const {a : List R16} {off : Nat} {v : R16} (h0 : a.getD off 0 = v) (h : ∀ k, k < 63 → a.getD (off + k + 1) 0 = 0) :
    S a off 64 = C v := by
  ext1 k
  rw [S_coeff, coeff_C]
  cases k with
  | zero => simpa using h0
  | succ k =>
    rw [if_neg (Nat.succ_ne_zero k)]
    split
    · exact h k (by omega)
    · rfl

theorem Arr.const {a : List R16} {v : R16} (h : Arr a 127 (C v)) : a = precW v := by
  apply ext_getD 0
  · rw [h.1]; rfl
  · intro k hk
    rw [h.2 k (by rw [h.1] at hk; exact hk), coeff_C]
    cases k with
    | zero => rfl
    | succ k =>
      rw [if_neg (by omega)]
      rw [precW, List.getD_cons_succ, getD_replicate_zero]

theorem addTo_zero {a : List R16} {i : Nat} (h : i < a.length) : addTo a i 0 = .ok a := by
  rw [addTo_ok h]
  congr 1
  apply ext_getD 0 (by simp)
  intro k hk
  rw [getD_set]
  split
  · rename_i e; rw [← e.1]; simp
  · rfl

theorem rd_cons_replicate (v : R16) (i : Nat) (h : i < 126) : rd (precW v) (i + 1) = .ok 0 := by
  rw [rd_ok 0 (by simp [precW]; omega), precW, List.getD_cons_succ, getD_replicate_zero]

/-- The 512 coefficients computed by the Toom-Cook multiplication for `precA` and `precB`. -/
def precC : List (BitVec 16) :=
  (List.range 512).map fun i =>
    if i = 0 then 65533 else if i = 64 then 16381 else if i = 128 then 57341 else if i = 192 then 65533 else
      if i = 256 then 40960 else if i = 320 then 16384 else 0

/-- The first iteration of the interpolation loop. -/
theorem prec_step : (do
      let r0 ← rd (precW 0) 0
      let r1 ← rd (precW 65491) 0
      let r2 ← rd (precW 65524) 0
      let r3 ← rd (precW 0) 0
      let r4 ← rd (precW 65176) 0
      let r5 ← rd (precW 65416) 0
      let r6 ← rd (precW 65533) 0
      let o ← toomInterp r0 r1 r2 r3 r4 r5 r6
      let C ← addTo precZ 0 o.w1
      let C ← addTo C (0 + 64) o.w2
      let C ← addTo C (0 + 128) o.w3
      let C ← addTo C (0 + 192) o.w4
      let C ← addTo C (0 + 256) o.w5
      let C ← addTo C (0 + 320) o.w6
      addTo C (0 + 384) o.w7) = .ok precC := by decide +kernel

theorem prec_toom : toom_cook_4way precA precB precZ = .ok precC := by
  have hA0 : S precA 0 64 = C 1 := S_const (by decide) (by decide +kernel)
  have hA1 : S precA 64 64 = C 0 := S_const (by decide) (by decide +kernel)
  have hA2 : S precA 128 64 = C 0 := S_const (by decide) (by decide +kernel)
  have hA3 : S precA 192 64 = C 0 := S_const (by decide) (by decide +kernel)
  have hB0 : S precB 0 64 = C 65533 := S_const (by decide +kernel) (by decide +kernel)
  have hB1 : S precB 64 64 = C 65533 := S_const (by decide +kernel) (by decide +kernel)
  have hB2 : S precB 128 64 = C 65533 := S_const (by decide +kernel) (by decide +kernel)
  have hB3 : S precB 192 64 = C 65533 := S_const (by decide +kernel) (by decide +kernel)
  suffices h : Ok (toom_cook_4way precA precB precZ) (· = precC) by
    obtain ⟨r, h1, h2⟩ := h; rw [h1, h2]
  unfold toom_cook_4way
  dsimp only
  refine (toomEvalLoop_ok (by decide +kernel) (length_uninit _ _ _) (length_uninit _ _ _) (length_uninit _ _ _) (length_uninit _ _ _)
    (length_uninit _ _ _) (length_uninit _ _ _) (length_uninit _ _ _)).bind fun aw hA => ?_
  refine (toomEvalLoop_ok (by decide +kernel) (length_uninit _ _ _) (length_uninit _ _ _) (length_uninit _ _ _) (length_uninit _ _ _)
    (length_uninit _ _ _) (length_uninit _ _ _) (length_uninit _ _ _)).bind fun bw hB => ?_
  have dA0 := Deg.S precA 0 64; have dA1 := Deg.S precA 64 64; have dA2 := Deg.S precA 128 64; have dA3 := Deg.S precA 192 64
  have dB0 := Deg.S precB 0 64; have dB1 := Deg.S precB 64 64; have dB2 := Deg.S precB 128 64; have dB3 := Deg.S precB 192 64
  have z127 : (List.replicate N_SB_RES (0 : R16)).length = 127 := List.length_replicate
  refine (karatsuba_simple_ok hA.w1.1 hB.w1.1 z127).bind fun w1 k1 => ?_
  refine (karatsuba_simple_ok hA.w2.1 hB.w2.1 z127).bind fun w2 k2 => ?_
  refine (karatsuba_simple_ok hA.w3.1 hB.w3.1 z127).bind fun w3 k3 => ?_
  refine (karatsuba_simple_ok hA.w4.1 hB.w4.1 z127).bind fun w4 k4 => ?_
  refine (karatsuba_simple_ok hA.w5.1 hB.w5.1 z127).bind fun w5 k5 => ?_
  refine (karatsuba_simple_ok hA.w6.1 hB.w6.1 z127).bind fun w6 k6 => ?_
  refine (karatsuba_simple_ok hA.w7.1 hB.w7.1 z127).bind fun w7 k7 => ?_
  rw [S_eq_of_ev hA.w1 dA3, S_eq_of_ev hB.w1 dB3] at k1
  rw [S_eq_of_ev hA.w2 (((dA0.add (dA1.ofNat_mul 2)).add (dA2.ofNat_mul 4)).add (dA3.ofNat_mul 8)),
    S_eq_of_ev hB.w2 (((dB0.add (dB1.ofNat_mul 2)).add (dB2.ofNat_mul 4)).add (dB3.ofNat_mul 8))] at k2
  rw [S_eq_of_ev hA.w3 (((dA0.add dA1).add dA2).add dA3), S_eq_of_ev hB.w3 (((dB0.add dB1).add dB2).add dB3)] at k3
  rw [S_eq_of_ev hA.w4 (((dA0.sub dA1).add dA2).sub dA3), S_eq_of_ev hB.w4 (((dB0.sub dB1).add dB2).sub dB3)] at k4
  rw [S_eq_of_ev hA.w5 ((((dA0.ofNat_mul 8).add (dA1.ofNat_mul 4)).add (dA2.ofNat_mul 2)).add dA3),
    S_eq_of_ev hB.w5 ((((dB0.ofNat_mul 8).add (dB1.ofNat_mul 4)).add (dB2.ofNat_mul 2)).add dB3)] at k5
  rw [S_eq_of_ev hA.w6 ((((dA0.ofNat_mul 8).sub (dA1.ofNat_mul 4)).add (dA2.ofNat_mul 2)).sub dA3),
    S_eq_of_ev hB.w6 ((((dB0.ofNat_mul 8).sub (dB1.ofNat_mul 4)).add (dB2.ofNat_mul 2)).sub dB3)] at k6
  rw [S_eq_of_ev hA.w7 dA0, S_eq_of_ev hB.w7 dB0] at k7
  rw [hA3, hB3] at k1
  rw [hA0, hA1, hA2, hA3, hB0, hB1, hB2, hB3] at k2 k3 k4 k5 k6
  rw [hA0, hB0] at k7
  have c2 : (2 : R16[X]) = C 2 := (C_ofNat 2).symm
  have c4 : (4 : R16[X]) = C 4 := (C_ofNat 4).symm
  have c8 : (8 : R16[X]) = C 8 := (C_ofNat 8).symm
  rw [c2, c4, c8] at k2 k5 k6
  simp only [← C_mul, ← C_add, ← C_sub] at k1 k2 k3 k4 k5 k6 k7
  have e1 : w1 = precW 0 := k1.const
  have e2 : w2 = precW 65491 := k2.const
  have e3 : w3 = precW 65524 := k3.const
  have e4 : w4 = precW 0 := k4.const
  have e5 : w5 = precW 65176 := k5.const
  have e6 : w6 = precW 65416 := k6.const
  have e7 : w7 = precW 65533 := k7.const
  clear k1 k2 k3 k4 k5 k6 k7 hA hB
  subst e1 e2 e3 e4 e5 e6 e7
  refine (loop_inv (fun i r => if i = 0 then r = precZ else r = precC) ?_ ?_).mono ?_
  · simp
  · intro i r hi h
    cases i with
    | zero =>
      simp only [if_true] at h
      rw [h]
      exact ⟨_, prec_step, rfl⟩
    | succ i =>
      have hi' : i < 126 := by have : N_SB_RES = 127 := rfl; omega
      rw [if_neg (Nat.succ_ne_zero i)] at h
      rw [h]
      have hl : precC.length = 512 := by simp [precC]
      simp only [rd_cons_replicate _ _ hi', ok_bind]
      have ei : toomInterp 0 0 0 0 0 0 0 = .ok ⟨0, 0, 0, 0, 0, 0, 0⟩ := by rfl
      rw [ei, ok_bind]
      dsimp only
      rw [addTo_zero (by omega), ok_bind, addTo_zero (by omega), ok_bind, addTo_zero (by omega), ok_bind, addTo_zero (by omega), ok_bind,
        addTo_zero (by omega), ok_bind, addTo_zero (by omega), ok_bind, addTo_zero (by omega)]
      exact ⟨_, rfl, rfl⟩
  · intro r h
    rwa [if_neg (by decide)] at h

theorem prec_mul : Ok (poly_mul_acc precA precB (List.replicate 256 0)) fun r => r.length = 256 ∧ r.getD 128 0 = 57341 := by
  unfold poly_mul_acc
  have h : toom_cook_4way precA precB (List.replicate (2 * N) 0) = .ok precC := prec_toom
  rw [h, ok_bind]
  refine (reduceLoop_ok (by simp [precC]) (by rw [List.length_replicate])).mono fun r h => ⟨h.1, ?_⟩
  rw [h.2 128 (by omega), getD_replicate_zero]
  decide +kernel

end Saber
