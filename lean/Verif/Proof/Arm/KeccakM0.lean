import Verif.Proof.Arm.KeccakP
import Verif.Spec.M0
import Verif.Model.M0.Linked
import Verif.Proof.Fips202
/-!
# Proof: the assembly function as the C code of the Cortex-M0 port uses it
-/
namespace Saber.Arm.Keccak
open Saber Spec Spec.Keccak

theorem length_wordsOfLanes : ∀ s : List (BitVec 64), (wordsOfLanes s).length = 2 * s.length
  | [] => rfl
  | _ :: s => by rw [wordsOfLanes, List.length_cons, List.length_cons, length_wordsOfLanes s, List.length_cons]; omega

theorem getD_wordsOfLanes : ∀ (s : List (BitVec 64)) (l h : Nat), l < s.length → h < 2 →
    (wordsOfLanes s).getD (2 * l + h) 0 = (s.getD l 0 >>> (32 * h)).setWidth 32
  | x :: s, 0, h, _, hh => by
    match h with
    | 0 => simp [wordsOfLanes]
    | 1 => simp [wordsOfLanes]
    | n + 2 => omega
  | x :: s, l + 1, h, hl, hh => by
    rw [wordsOfLanes, show 2 * (l + 1) + h = (2 * l + h) + 1 + 1 by omega, List.getD_cons_succ, List.getD_cons_succ, List.getD_cons_succ]
    exact getD_wordsOfLanes s l h (by simpa using hl) hh

theorem length_lanesOfWords : ∀ (n : Nat) (w : List (BitVec 32)), w.length = 2 * n → (lanesOfWords w).length = n
  | 0, w, h => by rw [List.length_eq_zero_iff.mp h]; rfl
  | n + 1, w, h => by
    match w, h with
    | x :: y :: w, h => rw [lanesOfWords, List.length_cons, length_lanesOfWords n w (by simp at h; omega)]

theorem getD_lanesOfWords : ∀ (l : Nat) (w : List (BitVec 32)), 2 * l + 1 < w.length →
    (lanesOfWords w).getD l 0 = w.getD (2 * l + 1) 0 ++ w.getD (2 * l) 0
  | 0, w, h => by
    match w, h with
    | x :: y :: w, _ => rfl
  | l + 1, w, h => by
    match w, h with
    | x :: y :: w, h =>
      rw [lanesOfWords, show 2 * (l + 1) + 1 = (2 * l + 1) + 1 + 1 by omega, show 2 * (l + 1) = 2 * l + 1 + 1 by omega, List.getD_cons_succ,
        List.getD_cons_succ, List.getD_cons_succ, List.getD_cons_succ, List.getD_cons_succ]
      exact getD_lanesOfWords l w (by simp at h; omega)

theorem interleaved_lanes (s : List (BitVec 64)) (hs : s.length = 25) :
    interleaved (wordsOfLanes s) = fun x y z => bitsL (laneAt s) x y (Fin.ofNat 64 (z.val / 2 + 32 * (z.val % 2))) := by
  funext x y z
  have := x.isLt; have := y.isLt; have := z.isLt
  unfold interleaved
  rw [getD_wordsOfLanes s _ _ (by omega) (by omega), BitVec.getLsbD_setWidth, BitVec.getLsbD_ushiftRight, bitsL, laneAt]
  rw [decide_eq_true (by omega), Bool.true_and, Nat.add_comm (32 * _)]
  simp only [Fin.ofNat]
  rw [Nat.mod_eq_of_lt (show z.val / 2 + 32 * (z.val % 2) < 64 by omega)]

theorem lanes_interleaved (w : List (BitVec 32)) (hw : w.length = 50) :
    bitsL (laneAt (lanesOfWords w)) = fun x y z => interleaved w x y (Fin.ofNat 64 (z.val / 32 + 2 * (z.val % 32))) := by
  funext x y z
  have := x.isLt; have := y.isLt; have := z.isLt
  rw [bitsL, laneAt, getD_lanesOfWords _ _ (by omega), interleaved, BitVec.getLsbD_append]
  simp only [Fin.ofNat]
  rw [Nat.mod_eq_of_lt (show z.val / 32 + 2 * (z.val % 32) < 64 by omega)]
  by_cases h : z.val < 32
  · rw [if_pos h, show (z.val / 32 + 2 * (z.val % 32)) % 2 = 0 by omega, show (z.val / 32 + 2 * (z.val % 32)) / 2 = z.val by omega, Nat.add_zero]
  · rw [if_neg h, show (z.val / 32 + 2 * (z.val % 32)) % 2 = 1 by omega, show (z.val / 32 + 2 * (z.val % 32)) / 2 = z.val - 32 by omega]

/-- The assembly function, linked with the C code. -/
theorem perm_asm_ok (g : Reg → CVal) (hg : ∀ r, g r ≠ .undef) (stk : List (Cell (BitVec 16))) (hk : stk.length = 32) (s : List (BitVec 64))
    (hs : s.length = 25) :
    Ok (perm_asm g stk s) fun s' => s'.length = 25 ∧ bitsOfLanes s' = @keccakF m0Permutation (bitsOfLanes s) := by
  obtain ⟨t, w, stk', e, hm, hw, hr, -⟩ := perm_run g hg (wordsOfLanes s) stk (by rw [length_wordsOfLanes, hs]) hk
  refine ⟨lanesOfWords w, ?_, length_lanesOfWords 25 w (by omega), ?_⟩
  · unfold perm_asm
    rw [e]
    dsimp only
    rw [show (t.mem : List (List (Cell (BitVec 16)))) = _ from hm]
    dsimp only
    rw [unwords_words]
  · rw [← stringOfState_bitsL, lanes_interleaved w hw, hr, interleaved_lanes s hs]
    unfold keccakF
    rw [stateOfString_bitsOfLanes]
    rfl

theorem linked_ok (g : Reg → CVal) (hg : ∀ r, g r ≠ .undef) (stk : List (Cell (BitVec 16))) (hk : stk.length = 32) :
    @Permutes m0Permutation (M0.linked g stk) := @Permutes.mk m0Permutation (M0.linked g stk) fun s hs => perm_asm_ok g hg stk hk s hs

/-! ### The same function, computed with the permutation of the reference implementation -/

theorem stateOfString_stringOfState (A : Spec.Keccak.State) : stateOfString (stringOfState A) = A := by
  funext x y z
  have := x.isLt; have := y.isLt; have := z.isLt
  unfold stateOfString stringOfState
  rw [getD_map_range _ _ _ _ (by omega)]
  simp only [Fin.ofNat]
  congr 1 <;> apply Fin.ext <;> dsimp only <;> omega

/-- A lane with its bits permuted. -/
def permBits (f : Nat → Nat) (x : BitVec 64) : BitVec 64 := BitVec.ofNat 64 (natOfBits 64 fun z => x.getLsbD (f z))

theorem getLsbD_permBits (f : Nat → Nat) (x : BitVec 64) (z : Nat) (h : z < 64) : (permBits f x).getLsbD z = x.getLsbD (f z) := by
  rw [permBits, BitVec.getLsbD_ofNat, natOfBits_testBit]
  simp [h]

/-- The permutation of the reference implementation between the two changes of representation. -/
def viaReference (s : List (BitVec 64)) : CM (List (BitVec 64)) := do
  let t ← KeccakF1600_StatePermute (s.map (permBits fun z => z / 2 + 32 * (z % 2)))
  pure (t.map (permBits fun z => z / 32 + 2 * (z % 32)))

theorem bitsL_map (f : Nat → Nat) (hf : ∀ z, z < 64 → f z < 64) (s : List (BitVec 64)) (hs : s.length = 25) :
    bitsL (laneAt (s.map (permBits f))) = fun x y z => bitsL (laneAt s) x y (Fin.ofNat 64 (f z.val)) := by
  funext x y z
  have := x.isLt; have := y.isLt; have := z.isLt
  unfold bitsL laneAt
  rw [List.getD_eq_getElem?_getD, List.getElem?_map, List.getElem?_eq_getElem (by omega), List.getD_eq_getElem?_getD,
    List.getElem?_eq_getElem (by omega)]
  simp only [Option.map_some, Option.getD_some, Fin.ofNat]
  rw [getLsbD_permBits _ _ _ z.isLt, Nat.mod_eq_of_lt (hf _ z.isLt)]

theorem viaReference_ok : @Permutes m0Permutation ⟨viaReference⟩ := by
  refine @Permutes.mk m0Permutation ⟨viaReference⟩ fun s hs => ?_
  show Ok (viaReference s) _
  unfold viaReference
  refine (KeccakF1600_ok (s.map (permBits fun z => z / 2 + 32 * (z % 2))) (by simpa using hs)).bind fun t ⟨ht, hb⟩ => Ok.pure ⟨by simpa using ht, ?_⟩
  have h2 := congrArg stateOfString hb
  unfold keccakF at h2
  rw [stateOfString_stringOfState, stateOfString_bitsOfLanes, stateOfString_bitsOfLanes, bitsL_map _ (by omega) s hs] at h2
  rw [← stringOfState_bitsL, bitsL_map _ (by omega) t ht, h2]
  unfold keccakF
  rw [stateOfString_bitsOfLanes]
  rfl

end Saber.Arm.Keccak
