import Verif.Model.Fips202
import Verif.Spec.Keccak
import Mathlib.Tactic.FinCases
import Mathlib.Data.Fintype.Card
import Mathlib.Data.ZMod.Defs
/-!
# Proof: the Keccak permutation
-/
namespace Saber
open Spec Keccak

/-- One round on 64-bit lanes, as the first half of the C loop body. -/
def roundL (rc0 : BitVec 64) (st : Lanes) : Lanes :=
  let Aba := st.Aba
  let Abe := st.Abe
  let Abi := st.Abi
  let Abo := st.Abo
  let Abu := st.Abu
  let Aga := st.Aga
  let Age := st.Age
  let Agi := st.Agi
  let Ago := st.Ago
  let Agu := st.Agu
  let Aka := st.Aka
  let Ake := st.Ake
  let Aki := st.Aki
  let Ako := st.Ako
  let Aku := st.Aku
  let Ama := st.Ama
  let Ame := st.Ame
  let Ami := st.Ami
  let Amo := st.Amo
  let Amu := st.Amu
  let Asa := st.Asa
  let Ase := st.Ase
  let Asi := st.Asi
  let Aso := st.Aso
  let Asu := st.Asu
  let BCa := Aba ^^^ Aga ^^^ Aka ^^^ Ama ^^^ Asa
  let BCe := Abe ^^^ Age ^^^ Ake ^^^ Ame ^^^ Ase
  let BCi := Abi ^^^ Agi ^^^ Aki ^^^ Ami ^^^ Asi
  let BCo := Abo ^^^ Ago ^^^ Ako ^^^ Amo ^^^ Aso
  let BCu := Abu ^^^ Agu ^^^ Aku ^^^ Amu ^^^ Asu
  let Da := BCu ^^^ ROL BCe 1
  let De := BCa ^^^ ROL BCi 1
  let Di := BCe ^^^ ROL BCo 1
  let Do := BCi ^^^ ROL BCu 1
  let Du := BCo ^^^ ROL BCa 1
  let Aba := Aba ^^^ Da
  let BCa := Aba
  let Age := Age ^^^ De
  let BCe := ROL Age 44
  let Aki := Aki ^^^ Di
  let BCi := ROL Aki 43
  let Amo := Amo ^^^ Do
  let BCo := ROL Amo 21
  let Asu := Asu ^^^ Du
  let BCu := ROL Asu 14
  let Eba := BCa ^^^ ((~~~BCe) &&& BCi)
  let Eba := Eba ^^^ rc0
  let Ebe := BCe ^^^ ((~~~BCi) &&& BCo)
  let Ebi := BCi ^^^ ((~~~BCo) &&& BCu)
  let Ebo := BCo ^^^ ((~~~BCu) &&& BCa)
  let Ebu := BCu ^^^ ((~~~BCa) &&& BCe)
  let Abo := Abo ^^^ Do
  let BCa := ROL Abo 28
  let Agu := Agu ^^^ Du
  let BCe := ROL Agu 20
  let Aka := Aka ^^^ Da
  let BCi := ROL Aka 3
  let Ame := Ame ^^^ De
  let BCo := ROL Ame 45
  let Asi := Asi ^^^ Di
  let BCu := ROL Asi 61
  let Ega := BCa ^^^ ((~~~BCe) &&& BCi)
  let Ege := BCe ^^^ ((~~~BCi) &&& BCo)
  let Egi := BCi ^^^ ((~~~BCo) &&& BCu)
  let Ego := BCo ^^^ ((~~~BCu) &&& BCa)
  let Egu := BCu ^^^ ((~~~BCa) &&& BCe)
  let Abe := Abe ^^^ De
  let BCa := ROL Abe 1
  let Agi := Agi ^^^ Di
  let BCe := ROL Agi 6
  let Ako := Ako ^^^ Do
  let BCi := ROL Ako 25
  let Amu := Amu ^^^ Du
  let BCo := ROL Amu 8
  let Asa := Asa ^^^ Da
  let BCu := ROL Asa 18
  let Eka := BCa ^^^ ((~~~BCe) &&& BCi)
  let Eke := BCe ^^^ ((~~~BCi) &&& BCo)
  let Eki := BCi ^^^ ((~~~BCo) &&& BCu)
  let Eko := BCo ^^^ ((~~~BCu) &&& BCa)
  let Eku := BCu ^^^ ((~~~BCa) &&& BCe)
  let Abu := Abu ^^^ Du
  let BCa := ROL Abu 27
  let Aga := Aga ^^^ Da
  let BCe := ROL Aga 36
  let Ake := Ake ^^^ De
  let BCi := ROL Ake 10
  let Ami := Ami ^^^ Di
  let BCo := ROL Ami 15
  let Aso := Aso ^^^ Do
  let BCu := ROL Aso 56
  let Ema := BCa ^^^ ((~~~BCe) &&& BCi)
  let Eme := BCe ^^^ ((~~~BCi) &&& BCo)
  let Emi := BCi ^^^ ((~~~BCo) &&& BCu)
  let Emo := BCo ^^^ ((~~~BCu) &&& BCa)
  let Emu := BCu ^^^ ((~~~BCa) &&& BCe)
  let Abi := Abi ^^^ Di
  let BCa := ROL Abi 62
  let Ago := Ago ^^^ Do
  let BCe := ROL Ago 55
  let Aku := Aku ^^^ Du
  let BCi := ROL Aku 39
  let Ama := Ama ^^^ Da
  let BCo := ROL Ama 41
  let Ase := Ase ^^^ De
  let BCu := ROL Ase 2
  let Esa := BCa ^^^ ((~~~BCe) &&& BCi)
  let Ese := BCe ^^^ ((~~~BCi) &&& BCo)
  let Esi := BCi ^^^ ((~~~BCo) &&& BCu)
  let Eso := BCo ^^^ ((~~~BCu) &&& BCa)
  let Esu := BCu ^^^ ((~~~BCa) &&& BCe)
  { Aba := Eba, Abe := Ebe, Abi := Ebi, Abo := Ebo, Abu := Ebu, Aga := Ega, Age := Ege, Agi := Egi, Ago := Ego, Agu := Egu, Aka := Eka, Ake := Eke, Aki := Eki, Ako := Eko, Aku := Eku, Ama := Ema, Ame := Eme, Ami := Emi, Amo := Emo, Amu := Emu, Asa := Esa, Ase := Ese, Asi := Esi, Aso := Eso, Asu := Esu }

theorem keccakDoubleRound_eq (rc0 rc1 : BitVec 64) (st : Lanes) :
    keccakDoubleRound rc0 rc1 st = roundL rc1 (roundL rc0 st) := rfl

/-- Rotation of a lane. -/
def rotL (a : BitVec 64) (k : Nat) : BitVec 64 := if k = 0 then a else ROL a k

/-- A state of 25 lanes. -/
abbrev LState := Fin 5 → Fin 5 → BitVec 64

def thetaCL (A : LState) (x : Fin 5) : BitVec 64 := A x 0 ^^^ A x 1 ^^^ A x 2 ^^^ A x 3 ^^^ A x 4
def thetaL (A : LState) : LState := fun x y => A x y ^^^ (thetaCL A (x - 1) ^^^ ROL (thetaCL A (x + 1)) 1)
def rhoL (A : LState) : LState := fun x y => rotL (A x y) (rhoOffset x y % 64)
def piL (A : LState) : LState := fun x y => A (x + 3 * y) x
def chiL (A : LState) : LState := fun x y => A x y ^^^ (~~~ A (x + 1) y &&& A (x + 2) y)
def iotaL (c : BitVec 64) (A : LState) : LState := fun x y => if x = 0 ∧ y = 0 then A x y ^^^ c else A x y

/-- The lanes as a list, in the order of the C array. -/
def Lanes.toList (st : Lanes) : List (BitVec 64) :=
  [st.Aba, st.Abe, st.Abi, st.Abo, st.Abu, st.Aga, st.Age, st.Agi, st.Ago, st.Agu, st.Aka, st.Ake, st.Aki, st.Ako, st.Aku, st.Ama, st.Ame, st.Ami, st.Amo, st.Amu, st.Asa, st.Ase, st.Asi, st.Aso, st.Asu]

/-- The lane `(x, y)` of a list of lanes. -/
def laneAt (s : List (BitVec 64)) : LState := fun x y => s.getD (5 * y.val + x.val) 0

theorem rhoOffset_table : ∀ x y : Fin 5, rhoOffset x y % 64 =
    [0, 1, 62, 28, 27, 36, 44, 6, 55, 20, 3, 10, 43, 25, 39, 41, 45, 15, 21, 8, 18, 2, 61, 56, 14].getD (5 * y.val + x.val) 0 := by
  decide

theorem roundL_eq (c : BitVec 64) (st : Lanes) :
    laneAt (roundL c st).toList = iotaL c (chiL (piL (rhoL (thetaL (laneAt st.toList))))) := by
  funext x y
  simp only [iotaL, chiL, piL, rhoL, rhoOffset_table]
  fin_cases x <;> fin_cases y <;> rfl

/-! ### From lanes to bits -/

/-- The bits of a state of lanes. -/
def bitsL (A : LState) : State := fun x y z => (A x y).getLsbD z.val

theorem ROL_bit (a : BitVec 64) (k : Nat) (hk : 0 < k) (hk' : k < 64) (z : Fin 64) :
    (ROL a k).getLsbD z.val = a.getLsbD (z - Fin.ofNat 64 k).val := by
  have hz := z.isLt
  have e : (z - Fin.ofNat 64 k).val = (64 - k + z.val) % 64 := by
    rw [Fin.sub_def]
    simp only [Fin.ofNat, Nat.mod_eq_of_lt hk']
  rw [e, ROL, BitVec.getLsbD_xor, BitVec.getLsbD_shiftLeft, BitVec.getLsbD_ushiftRight]
  by_cases h : z.val < k
  · rw [show (64 - k + z.val) % 64 = 64 - k + z.val by omega]
    simp [h]
  · rw [show (64 - k + z.val) % 64 = z.val - k by omega, BitVec.getLsbD_of_ge a (64 - k + z.val) (by omega)]
    simp [h]

theorem rotL_bit (a : BitVec 64) (k : Nat) (hk' : k < 64) (z : Fin 64) :
    (rotL a k).getLsbD z.val = a.getLsbD (z - Fin.ofNat 64 k).val := by
  unfold rotL
  by_cases h : k = 0
  · subst h
    rw [if_pos rfl, show z - Fin.ofNat 64 0 = z from sub_zero z]
  · rw [if_neg h, ROL_bit a k (by omega) hk']

theorem bitsL_theta (A : LState) : bitsL (thetaL A) = theta (bitsL A) := by
  funext x y z
  simp only [bitsL, thetaL, theta, thetaC, thetaCL, BitVec.getLsbD_xor]
  rw [ROL_bit _ 1 (by omega) (by omega)]
  simp only [BitVec.getLsbD_xor]
  rfl

theorem bitsL_rho (A : LState) : bitsL (rhoL A) = rho (bitsL A) := by
  funext x y z
  simp only [bitsL, rhoL, rho]
  rw [rotL_bit _ _ (Nat.mod_lt _ (by omega))]
  congr 3
  simp [Fin.ofNat]

theorem bitsL_pi (A : LState) : bitsL (piL A) = Keccak.pi (bitsL A) := rfl

theorem bitsL_chi (A : LState) : bitsL (chiL A) = chi (bitsL A) := by
  funext x y z
  have := z.isLt
  simp [bitsL, chiL, chi]

theorem bitsL_iota (c : BitVec 64) (ir : Nat) (hc : ∀ z : Fin 64, c.getLsbD z.val = RC ir z) (A : LState) :
    bitsL (iotaL c A) = iota ir (bitsL A) := by
  funext x y z
  simp only [bitsL, iotaL, iota]
  split
  · rw [BitVec.getLsbD_xor, hc]
  · rfl

theorem RC_table : ∀ ir : Fin 24, ∀ z : Fin 64, (KeccakF_RoundConstants.getD ir.val 0).getLsbD z.val = RC ir.val z := by
  decide +kernel

theorem round_bits (ir : Nat) (hir : ir < 24) (st : Lanes) :
    bitsL (laneAt (roundL (KeccakF_RoundConstants.getD ir 0) st).toList) = Keccak.round ir (bitsL (laneAt st.toList)) := by
  rw [roundL_eq, bitsL_iota _ ir (RC_table ⟨ir, hir⟩), bitsL_chi, bitsL_pi, bitsL_rho, bitsL_theta]; rfl

/-- The bit string of a list of lanes. -/
def bitsOfLanes (s : List (BitVec 64)) : List Bool :=
  (List.range 1600).map fun n => (s.getD (n / 64) 0).getLsbD (n % 64)

@[simp] theorem length_bitsOfLanes (s : List (BitVec 64)) : (bitsOfLanes s).length = 1600 := by simp [bitsOfLanes]

theorem getD_bitsOfLanes (s : List (BitVec 64)) (n : Nat) (hn : n < 1600) :
    (bitsOfLanes s).getD n false = (s.getD (n / 64) 0).getLsbD (n % 64) := by
  simp [bitsOfLanes, hn]

theorem stateOfString_bitsOfLanes (s : List (BitVec 64)) : stateOfString (bitsOfLanes s) = bitsL (laneAt s) := by
  funext x y z
  have := x.isLt; have := y.isLt; have := z.isLt
  rw [stateOfString, getD_bitsOfLanes _ _ (by omega), bitsL, laneAt,
    show (64 * (5 * y.val + x.val) + z.val) / 64 = 5 * y.val + x.val by omega,
    show (64 * (5 * y.val + x.val) + z.val) % 64 = z.val by omega]

theorem stringOfState_bitsL (s : List (BitVec 64)) : stringOfState (bitsL (laneAt s)) = bitsOfLanes s := by
  unfold stringOfState bitsOfLanes
  apply List.map_congr_left
  intro n hn
  have hn := List.mem_range.mp hn
  simp only [bitsL, laneAt, Fin.ofNat]
  congr 2
  omega

/-- The permutation computes Keccak-f[1600]. -/
theorem KeccakF1600_ok (s : List (BitVec 64)) (hs : s.length = 25) :
    Ok (KeccakF1600_StatePermute s) fun s' => s'.length = 25 ∧ bitsOfLanes s' = keccakF (bitsOfLanes s) := by
  unfold KeccakF1600_StatePermute
  rw [rd_ok 0 (show 0 < s.length by omega), ok_bind]
  rw [rd_ok 0 (show 1 < s.length by omega), ok_bind]
  rw [rd_ok 0 (show 2 < s.length by omega), ok_bind]
  rw [rd_ok 0 (show 3 < s.length by omega), ok_bind]
  rw [rd_ok 0 (show 4 < s.length by omega), ok_bind]
  rw [rd_ok 0 (show 5 < s.length by omega), ok_bind]
  rw [rd_ok 0 (show 6 < s.length by omega), ok_bind]
  rw [rd_ok 0 (show 7 < s.length by omega), ok_bind]
  rw [rd_ok 0 (show 8 < s.length by omega), ok_bind]
  rw [rd_ok 0 (show 9 < s.length by omega), ok_bind]
  rw [rd_ok 0 (show 10 < s.length by omega), ok_bind]
  rw [rd_ok 0 (show 11 < s.length by omega), ok_bind]
  rw [rd_ok 0 (show 12 < s.length by omega), ok_bind]
  rw [rd_ok 0 (show 13 < s.length by omega), ok_bind]
  rw [rd_ok 0 (show 14 < s.length by omega), ok_bind]
  rw [rd_ok 0 (show 15 < s.length by omega), ok_bind]
  rw [rd_ok 0 (show 16 < s.length by omega), ok_bind]
  rw [rd_ok 0 (show 17 < s.length by omega), ok_bind]
  rw [rd_ok 0 (show 18 < s.length by omega), ok_bind]
  rw [rd_ok 0 (show 19 < s.length by omega), ok_bind]
  rw [rd_ok 0 (show 20 < s.length by omega), ok_bind]
  rw [rd_ok 0 (show 21 < s.length by omega), ok_bind]
  rw [rd_ok 0 (show 22 < s.length by omega), ok_bind]
  rw [rd_ok 0 (show 23 < s.length by omega), ok_bind]
  rw [rd_ok 0 (show 24 < s.length by omega), ok_bind]
  generalize hst0 : (⟨s.getD 0 0, s.getD 1 0, s.getD 2 0, s.getD 3 0, s.getD 4 0, s.getD 5 0, s.getD 6 0, s.getD 7 0, s.getD 8 0, s.getD 9 0, s.getD 10 0, s.getD 11 0, s.getD 12 0, s.getD 13 0, s.getD 14 0, s.getD 15 0, s.getD 16 0, s.getD 17 0, s.getD 18 0, s.getD 19 0, s.getD 20 0, s.getD 21 0, s.getD 22 0, s.getD 23 0, s.getD 24 0⟩ : Lanes) = st0
  have h0 : laneAt st0.toList = laneAt s := by
    subst hst0
    funext x y
    fin_cases x <;> fin_cases y <;> rfl
  refine (loop_inv (fun i (st : Lanes) => bitsL (laneAt st.toList) = rounds (2 * i) (bitsL (laneAt s))) ?_ ?_).bind ?_
  · rw [h0]; rfl
  · intro i st hi h
    rw [rd_ok 0 (show 2 * i < KeccakF_RoundConstants.length by simp [KeccakF_RoundConstants]; omega), ok_bind,
      rd_ok 0 (show 2 * i + 1 < KeccakF_RoundConstants.length by simp [KeccakF_RoundConstants]; omega), ok_bind]
    refine Ok.pure ?_
    rw [keccakDoubleRound_eq, round_bits _ (by omega), round_bits _ (by omega), h]; rfl
  · intro st h
    change Ok (wrs s 0 st.toList) _
    have hl : st.toList.length = 25 := rfl
    rw [wrs_ok _ _ _ (by omega)]
    refine Ok.pure ⟨by rw [length_writeAt _ _ _ (by omega), hs], ?_⟩
    rw [writeAt_full _ _ (by omega), keccakF, stateOfString_bitsOfLanes]
    change _ = stringOfState (rounds 24 _)
    rw [show rounds 24 (bitsL (laneAt s)) = bitsL (laneAt st.toList) from h.symm, stringOfState_bitsL]

/-- The function to which the sponge is linked computes the function of the specification. -/
class Permutes [Permutation] [StatePermute] : Prop where
  ok : ∀ s : List (BitVec 64), s.length = 25 →
    Ok (StatePermute.permute s) fun s' => s'.length = 25 ∧ bitsOfLanes s' = keccakF (bitsOfLanes s)

instance : @Permutes standard reference := @Permutes.mk standard reference KeccakF1600_ok

end Saber
