import Verif.Model.X4.Keccak
import Verif.Proof.Keccak
import Verif.Proof.Bits
import Mathlib.Tactic.IntervalCases
/-!
# Proof: each lane of the four-fold permutation is Keccak-f[1600]
-/
namespace Saber.X4
open Spec Keccak

theorem rol_or (a : BitVec 64) (k : Nat) : (a <<< k) ||| (a >>> (64 - k)) = ROL a k ∨ k = 0 ∨ 64 ≤ k := by
  by_cases hk : k = 0; · exact .inr (.inl hk)
  by_cases hk' : 64 ≤ k; · exact .inr (.inr hk')
  left
  apply BitVec.eq_of_getLsbD_eq
  intro i hi
  rw [ROL, BitVec.getLsbD_or, BitVec.getLsbD_xor, BitVec.getLsbD_shiftLeft, BitVec.getLsbD_ushiftRight]
  by_cases h : i < k
  · simp [h, hi]
  · have : a.getLsbD (64 - k + i) = false := BitVec.getLsbD_of_ge _ _ (by omega)
    rw [this]; simp

theorem ROL64in256_lane (a : V256) (k : Nat) (hk : 0 < k) (hk' : k < 64) (l : Fin 4) : ROL64in256 a k l = ROL (a l) k := by
  rcases rol_or (a l) k with h | h | h
  · exact h
  · omega
  · omega

/-- Byte `j` of a lane. -/
def lb (x : BitVec 64) (j : Nat) : Byte := (x >>> (8 * j)).setWidth 8

theorem rot8 (x : BitVec 64) :
    (lb x 6 ++ lb x 5 ++ lb x 4 ++ lb x 3 ++ lb x 2 ++ lb x 1 ++ lb x 0 ++ lb x 7 : BitVec 64) = ROL x 8 := by
  apply BitVec.eq_of_getLsbD_eq
  intro i hi
  simp only [BitVec.getLsbD_append, lb, ROL, BitVec.getLsbD_setWidth, BitVec.getLsbD_ushiftRight, BitVec.getLsbD_xor, BitVec.getLsbD_shiftLeft]
  interval_cases i <;> simp

theorem rot56 (x : BitVec 64) :
    (lb x 0 ++ lb x 7 ++ lb x 6 ++ lb x 5 ++ lb x 4 ++ lb x 3 ++ lb x 2 ++ lb x 1 : BitVec 64) = ROL x 56 := by
  apply BitVec.eq_of_getLsbD_eq
  intro i hi
  simp only [BitVec.getLsbD_append, lb, ROL, BitVec.getLsbD_setWidth, BitVec.getLsbD_ushiftRight, BitVec.getLsbD_xor, BitVec.getLsbD_shiftLeft]
  interval_cases i <;> simp

theorem ROL64in256_8_lane (a : V256) (l : Fin 4) : ROL64in256_8 a l = ROL (a l) 8 := by
  rw [← rot8]
  fin_cases l <;> rfl

theorem ROL64in256_56_lane (a : V256) (l : Fin 4) : ROL64in256_56 a l = ROL (a l) 56 := by
  rw [← rot56]
  fin_cases l <;> rfl

/-- The variables of one lane. -/
def Vars.lane (A : Vars) (l : Fin 4) : Lanes :=
  ⟨A.ba l, A.be l, A.bi l, A.bo l, A.bu l, A.ga l, A.ge l, A.gi l, A.go l, A.gu l, A.ka l, A.ke l, A.ki l, A.ko l, A.ku l,
    A.ma l, A.me l, A.mi l, A.mo l, A.mu l, A.sa l, A.se l, A.si l, A.so l, A.su l⟩

/-- `C` holds the column parities of `A`. -/
structure ColsOf (C : Cols) (A : Vars) : Prop where
  a : ∀ l, C.a l = A.ba l ^^^ A.ga l ^^^ A.ka l ^^^ A.ma l ^^^ A.sa l
  e : ∀ l, C.e l = A.be l ^^^ A.ge l ^^^ A.ke l ^^^ A.me l ^^^ A.se l
  i : ∀ l, C.i l = A.bi l ^^^ A.gi l ^^^ A.ki l ^^^ A.mi l ^^^ A.si l
  o : ∀ l, C.o l = A.bo l ^^^ A.go l ^^^ A.ko l ^^^ A.mo l ^^^ A.so l
  u : ∀ l, C.u l = A.bu l ^^^ A.gu l ^^^ A.ku l ^^^ A.mu l ^^^ A.su l

theorem prepareTheta_cols (A : Vars) : ColsOf (prepareTheta A) A := by
  constructor <;> intro l <;> simp only [prepareTheta, XOR256, BitVec.xor_assoc]

theorem round_cols (rc : BitVec 64) (A : Vars) (C : Cols) :
    ColsOf (thetaRhoPiChiIotaPrepareTheta rc A C).2 (thetaRhoPiChiIotaPrepareTheta rc A C).1 := by
  constructor <;> intro l <;> rfl

theorem last_eq (rc : BitVec 64) (A : Vars) (C : Cols) :
    thetaRhoPiChiIota rc A C = (thetaRhoPiChiIotaPrepareTheta rc A C).1 := rfl

theorem round_lane (rc : BitVec 64) (A : Vars) (C : Cols) (hC : ColsOf C A) (l : Fin 4) :
    (thetaRhoPiChiIotaPrepareTheta rc A C).1.lane l = roundL rc (A.lane l) := by
  simp only [thetaRhoPiChiIotaPrepareTheta, Vars.lane, XOR256, ANDnu256, CONST256_64, ROL64in256_8_lane, ROL64in256_56_lane,
    ROL64in256_lane _ _ (by decide : 0 < 1) (by decide), ROL64in256_lane _ _ (by decide : 0 < 44) (by decide), ROL64in256_lane _ _ (by decide : 0 < 43) (by decide),
    ROL64in256_lane _ _ (by decide : 0 < 21) (by decide), ROL64in256_lane _ _ (by decide : 0 < 14) (by decide), ROL64in256_lane _ _ (by decide : 0 < 28) (by decide),
    ROL64in256_lane _ _ (by decide : 0 < 20) (by decide), ROL64in256_lane _ _ (by decide : 0 < 3) (by decide), ROL64in256_lane _ _ (by decide : 0 < 45) (by decide),
    ROL64in256_lane _ _ (by decide : 0 < 61) (by decide), ROL64in256_lane _ _ (by decide : 0 < 6) (by decide), ROL64in256_lane _ _ (by decide : 0 < 25) (by decide),
    ROL64in256_lane _ _ (by decide : 0 < 18) (by decide), ROL64in256_lane _ _ (by decide : 0 < 27) (by decide), ROL64in256_lane _ _ (by decide : 0 < 36) (by decide),
    ROL64in256_lane _ _ (by decide : 0 < 10) (by decide), ROL64in256_lane _ _ (by decide : 0 < 15) (by decide), ROL64in256_lane _ _ (by decide : 0 < 62) (by decide),
    ROL64in256_lane _ _ (by decide : 0 < 55) (by decide), ROL64in256_lane _ _ (by decide : 0 < 39) (by decide), ROL64in256_lane _ _ (by decide : 0 < 41) (by decide),
    ROL64in256_lane _ _ (by decide : 0 < 2) (by decide), hC.a, hC.e, hC.i, hC.o, hC.u]
  rfl

/-- `k` rounds on one lane. -/
def rnds (k : Nat) (st : Lanes) : Lanes := (List.range k).foldl (fun st i => roundL (KeccakF_RoundConstants.getD i 0) st) st

theorem rnds_succ (k : Nat) (st : Lanes) : rnds (k + 1) st = roundL (KeccakF_RoundConstants.getD k 0) (rnds k st) := by
  simp [rnds, List.range_succ]

/-- State after `k` rounds. -/
def Inv (A0 : Vars) (k : Nat) (A : Vars) (C : Cols) : Prop := ColsOf C A ∧ ∀ l, A.lane l = rnds k (A0.lane l)

theorem Inv.step {A0 : Vars} {k : Nat} {A : Vars} {C : Cols} (h : Inv A0 k A C) :
    Inv A0 (k + 1) (thetaRhoPiChiIotaPrepareTheta (KeccakF_RoundConstants.getD k 0) A C).1
      (thetaRhoPiChiIotaPrepareTheta (KeccakF_RoundConstants.getD k 0) A C).2 :=
  ⟨round_cols _ _ _, fun l => by rw [round_lane _ _ _ h.1, h.2, rnds_succ]⟩

theorem rc_eq : KeccakF1600RoundConstants = KeccakF_RoundConstants := rfl

theorem roundPrepare_ok {A0 : Vars} {X : Vars × Cols} (k : Nat) (hk : k < 24) (h : Inv A0 k X.1 X.2) :
    Ok (roundPrepare k X) fun Y => Inv A0 (k + 1) Y.1 Y.2 := by
  unfold roundPrepare
  rw [rc_eq, rd_ok 0 (show k < KeccakF_RoundConstants.length from hk), ok_bind]
  exact Ok.pure h.step

theorem roundLast_ok {A0 : Vars} {X : Vars × Cols} (k : Nat) (hk : k < 24) (h : Inv A0 k X.1 X.2) :
    Ok (roundLast k X) fun Y => ∀ l, Y.lane l = rnds (k + 1) (A0.lane l) := by
  unfold roundLast
  rw [rc_eq, rd_ok 0 (show k < KeccakF_RoundConstants.length from hk), ok_bind, last_eq]
  exact Ok.pure h.step.2

theorem rounds24_ok (A : Vars) : Ok (rounds24 A) fun A' => ∀ l, A'.lane l = rnds 24 (A.lane l) := by
  have h0 : Inv A 0 (A, prepareTheta A).1 (A, prepareTheta A).2 := ⟨prepareTheta_cols A, fun l => rfl⟩
  unfold rounds24
  refine (roundPrepare_ok 0 (by decide) h0).bind fun X1 h1 => ?_
  refine (roundPrepare_ok 1 (by decide) h1).bind fun X2 h2 => ?_
  refine (roundPrepare_ok 2 (by decide) h2).bind fun X3 h3 => ?_
  refine (roundPrepare_ok 3 (by decide) h3).bind fun X4 h4 => ?_
  refine (roundPrepare_ok 4 (by decide) h4).bind fun X5 h5 => ?_
  refine (roundPrepare_ok 5 (by decide) h5).bind fun X6 h6 => ?_
  refine (roundPrepare_ok 6 (by decide) h6).bind fun X7 h7 => ?_
  refine (roundPrepare_ok 7 (by decide) h7).bind fun X8 h8 => ?_
  refine (roundPrepare_ok 8 (by decide) h8).bind fun X9 h9 => ?_
  refine (roundPrepare_ok 9 (by decide) h9).bind fun X10 h10 => ?_
  refine (roundPrepare_ok 10 (by decide) h10).bind fun X11 h11 => ?_
  refine (roundPrepare_ok 11 (by decide) h11).bind fun X12 h12 => ?_
  refine (roundPrepare_ok 12 (by decide) h12).bind fun X13 h13 => ?_
  refine (roundPrepare_ok 13 (by decide) h13).bind fun X14 h14 => ?_
  refine (roundPrepare_ok 14 (by decide) h14).bind fun X15 h15 => ?_
  refine (roundPrepare_ok 15 (by decide) h15).bind fun X16 h16 => ?_
  refine (roundPrepare_ok 16 (by decide) h16).bind fun X17 h17 => ?_
  refine (roundPrepare_ok 17 (by decide) h17).bind fun X18 h18 => ?_
  refine (roundPrepare_ok 18 (by decide) h18).bind fun X19 h19 => ?_
  refine (roundPrepare_ok 19 (by decide) h19).bind fun X20 h20 => ?_
  refine (roundPrepare_ok 20 (by decide) h20).bind fun X21 h21 => ?_
  refine (roundPrepare_ok 21 (by decide) h21).bind fun X22 h22 => ?_
  refine (roundPrepare_ok 22 (by decide) h22).bind fun X23 h23 => ?_
  refine (roundLast_ok 23 (by decide) h23).bind fun A' h => ?_
  exact Ok.pure h

/-- The state of one lane. -/
def lane (l : Fin 4) (s : List V256) : List (BitVec 64) := s.map (· l)

@[simp] theorem length_lane (l : Fin 4) (s : List V256) : (lane l s).length = s.length := by simp [lane]

theorem getD_lane (l : Fin 4) (s : List V256) (i : Nat) : (lane l s).getD i 0 = s.getD i (fun _ => 0) l := by
  simp only [lane, List.getD_eq_getElem?_getD, List.getElem?_map]
  cases s[i]? <;> rfl

theorem rnds_bits (k : Nat) (hk : k ≤ 24) (st : Lanes) :
    bitsL (laneAt (rnds k st).toList) = rounds k (bitsL (laneAt st.toList)) := by
  induction k with
  | zero => rfl
  | succ k ih => rw [rnds_succ, round_bits _ (by omega), ih (by omega)]; rfl

theorem bitsOfLanes_inj {s t : List (BitVec 64)} (hs : s.length = 25) (ht : t.length = 25) (h : bitsOfLanes s = bitsOfLanes t) : s = t := by
  apply ext_getD 0 (by omega)
  intro i hi
  apply BitVec.eq_of_getLsbD_eq
  intro j hj
  have := congrArg (fun l => l.getD (64 * i + j) false) h
  rw [getD_bitsOfLanes _ _ (by omega), getD_bitsOfLanes _ _ (by omega), show (64 * i + j) / 64 = i by omega,
    show (64 * i + j) % 64 = j by omega] at this
  exact this

theorem permute_ok (s : List V256) (hs : s.length = 25) :
    Ok (KeccakP1600times4_PermuteAll_24rounds s) fun s' => s'.length = 25 ∧ ∀ l, KeccakF1600_StatePermute (lane l s) = .ok (lane l s') := by
  suffices H : Ok (KeccakP1600times4_PermuteAll_24rounds s) fun s' => s'.length = 25 ∧
      ∀ l, bitsOfLanes (lane l s') = keccakF (bitsOfLanes (lane l s)) by
    refine H.mono fun s' ⟨h1, h2⟩ => ⟨h1, fun l => ?_⟩
    obtain ⟨t, ht, h3, h4⟩ := KeccakF1600_ok (lane l s) (by simpa using hs)
    rw [ht, bitsOfLanes_inj h3 (by simpa using h1) (h4.trans (h2 l).symm)]
  unfold KeccakP1600times4_PermuteAll_24rounds
  rw [rd_ok (fun _ => 0) (show 0 < s.length by omega), ok_bind]
  rw [rd_ok (fun _ => 0) (show 1 < s.length by omega), ok_bind]
  rw [rd_ok (fun _ => 0) (show 2 < s.length by omega), ok_bind]
  rw [rd_ok (fun _ => 0) (show 3 < s.length by omega), ok_bind]
  rw [rd_ok (fun _ => 0) (show 4 < s.length by omega), ok_bind]
  rw [rd_ok (fun _ => 0) (show 5 < s.length by omega), ok_bind]
  rw [rd_ok (fun _ => 0) (show 6 < s.length by omega), ok_bind]
  rw [rd_ok (fun _ => 0) (show 7 < s.length by omega), ok_bind]
  rw [rd_ok (fun _ => 0) (show 8 < s.length by omega), ok_bind]
  rw [rd_ok (fun _ => 0) (show 9 < s.length by omega), ok_bind]
  rw [rd_ok (fun _ => 0) (show 10 < s.length by omega), ok_bind]
  rw [rd_ok (fun _ => 0) (show 11 < s.length by omega), ok_bind]
  rw [rd_ok (fun _ => 0) (show 12 < s.length by omega), ok_bind]
  rw [rd_ok (fun _ => 0) (show 13 < s.length by omega), ok_bind]
  rw [rd_ok (fun _ => 0) (show 14 < s.length by omega), ok_bind]
  rw [rd_ok (fun _ => 0) (show 15 < s.length by omega), ok_bind]
  rw [rd_ok (fun _ => 0) (show 16 < s.length by omega), ok_bind]
  rw [rd_ok (fun _ => 0) (show 17 < s.length by omega), ok_bind]
  rw [rd_ok (fun _ => 0) (show 18 < s.length by omega), ok_bind]
  rw [rd_ok (fun _ => 0) (show 19 < s.length by omega), ok_bind]
  rw [rd_ok (fun _ => 0) (show 20 < s.length by omega), ok_bind]
  rw [rd_ok (fun _ => 0) (show 21 < s.length by omega), ok_bind]
  rw [rd_ok (fun _ => 0) (show 22 < s.length by omega), ok_bind]
  rw [rd_ok (fun _ => 0) (show 23 < s.length by omega), ok_bind]
  rw [rd_ok (fun _ => 0) (show 24 < s.length by omega), ok_bind]
  refine (rounds24_ok _).bind fun A hA => ?_
  have hW : (wrs s 0 [A.ba, A.be, A.bi, A.bo, A.bu, A.ga, A.ge, A.gi, A.go, A.gu, A.ka, A.ke, A.ki, A.ko, A.ku, A.ma, A.me, A.mi, A.mo, A.mu, A.sa, A.se, A.si, A.so, A.su]) = .ok [A.ba, A.be, A.bi, A.bo, A.bu, A.ga, A.ge, A.gi, A.go, A.gu, A.ka, A.ke, A.ki, A.ko, A.ku, A.ma, A.me, A.mi, A.mo, A.mu, A.sa, A.se, A.si, A.so, A.su] := by
    rw [wrs_ok _ _ _ (by rw [hs]; exact Nat.le_refl 25), writeAt_full _ _ (by rw [hs]; rfl)]
  have hbp : ∀ m : CM (List V256), (m >>= fun a => .ok a) = m := fun m => by cases m <;> rfl
  simp only [wrs, hbp] at hW
  refine ⟨[A.ba, A.be, A.bi, A.bo, A.bu, A.ga, A.ge, A.gi, A.go, A.gu, A.ka, A.ke, A.ki, A.ko, A.ku, A.ma, A.me, A.mi, A.mo, A.mu, A.sa, A.se, A.si, A.so, A.su], hW, rfl, fun l => ?_⟩
  have h1 : lane l [A.ba, A.be, A.bi, A.bo, A.bu, A.ga, A.ge, A.gi, A.go, A.gu, A.ka, A.ke, A.ki, A.ko, A.ku, A.ma, A.me, A.mi, A.mo, A.mu, A.sa, A.se, A.si, A.so, A.su] = (A.lane l).toList := rfl
  rw [h1, hA l, ← stringOfState_bitsL, rnds_bits 24 (by decide), keccakF, stateOfString_bitsOfLanes]
  change _ = stringOfState (rounds 24 _)
  congr 3
  funext x y
  fin_cases x <;> fin_cases y <;> simp only [laneAt, getD_lane] <;> rfl

end Saber.X4
