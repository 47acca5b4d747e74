import Verif.Model.M0.Prng
import Verif.Proof.M0.Stream
import Verif.Proof.Kem
/-!
# `prng.c` of the Cortex-M0 port
-/
namespace Saber.M0
open Saber

/-- Byte `j` of a request for `n` bytes. -/
def prngByte (word : Nat → BitVec 32) (n j : Nat) : Byte :=
  if j < 2 * ((n - 1) / 2) then (aschar (word (j / 2)) (j % 2)).setWidth 8
  else (aschar (word ((n - 1) / 2)) (n - 1 - j)).setWidth 8

theorem randombytes_m0 (word : Nat → BitVec 32) (x : List Byte) (off n : Nat) (hx : off + n ≤ x.length) :
    randombytes word x off n = .ok (writeAt x off ((List.range n).map (prngByte word n)), (n + 1) / 2) := by
  unfold randombytes
  dsimp only
  generalize hh : (n - 1) / 2 = h
  have hn : 2 * h ≤ n := by omega
  have e1 := loop_blocks 2 (fun i => [(aschar (word i) 0).setWidth 8, (aschar (word i) 1).setWidth 8]) (fun _ => rfl) h x off (by omega)
    (fun i x => do
      let x ← wr x (off + 2 * i) ((aschar (word i) 0).setWidth 8)
      wr x (off + (2 * i + 1)) ((aschar (word i) 1).setWidth 8)) (by
      intro j a' hj ha
      simp only [wrs, ← Nat.add_assoc]
      cases wr a' (off + 2 * j) ((aschar (word j) 0).setWidth 8) with
      | error e => rfl
      | ok a =>
        rw [ok_bind, ok_bind]
        cases wr a (off + 2 * j + 1) ((aschar (word j) 1).setWidth 8) <;> rfl)
  rw [e1, ok_bind]
  have hl : ((List.range h).flatMap fun i => [(aschar (word i) 0).setWidth 8, (aschar (word i) 1).setWidth 8]).length = 2 * h := by
    rw [List.length_flatMap]; simp [mul_comm]
  have hfirst : (List.range h).flatMap (fun i => [(aschar (word i) 0).setWidth 8, (aschar (word i) 1).setWidth 8]) =
      (List.range (2 * h)).map (prngByte word n) := by
    apply ext_getD (0 : Byte)
    · rw [hl]; simp
    · intro i hi
      rw [hl] at hi
      rw [getD_map_range _ _ _ _ hi, getD_flatMap_range 2 (by omega) _ (fun _ => rfl) 0 h i (by omega), prngByte, hh, if_pos hi]
      rcases Nat.mod_two_eq_zero_or_one i with e | e <;> rw [e] <;> rfl
  rw [hfirst] at hl ⊢
  split
  · next hr =>
    have e2 := loop_blocks 1 (fun i => [(aschar (word h) (n - 2 * h - i - 1)).setWidth 8]) (fun _ => rfl) (n - 2 * h)
      (writeAt x off ((List.range (2 * h)).map (prngByte word n))) (off + 2 * h) (by rw [length_writeAt _ _ _ (by omega)]; omega)
      (fun i x => wr x (off + (2 * h + i)) ((aschar (word h) (n - 2 * h - i - 1)).setWidth 8)) (by
        intro j a' hj ha
        rw [wr_eq_wrs, Nat.one_mul, Nat.add_assoc])
    rw [e2, ok_bind, flatMap_singleton_eq_map, writeAt_after _ _ _ _ _ (by omega) (by simp; omega)]
    have : (List.range (2 * h)).map (prngByte word n) ++ (List.range (n - 2 * h)).map (fun i => (aschar (word h) (n - 2 * h - i - 1)).setWidth 8)
        = (List.range n).map (prngByte word n) := by
      apply ext_getD (0 : Byte)
      · simp; omega
      · intro i hi
        have hi' : i < n := by simp at hi; omega
        rw [getD_map_range _ _ _ _ hi', List.getD_eq_getElem?_getD, List.getElem?_append]
        simp only [List.length_map, List.length_range]
        split
        · next h1 => rw [← List.getD_eq_getElem?_getD, getD_map_range _ _ _ _ h1]
        · next h1 =>
          rw [← List.getD_eq_getElem?_getD, getD_map_range _ _ _ _ (by omega), prngByte, hh, if_neg h1]
          congr 2
          omega
    rw [this, show h + 1 = (n + 1) / 2 by omega]
    rfl
  · next hr =>
    rw [show 2 * h = n by omega, show h = (n + 1) / 2 by omega]
    rfl

theorem aschar_high (w : BitVec 32) (hw : w.toNat < 65536) : aschar w 1 = 0 := by
  apply BitVec.eq_of_toNat_eq
  unfold aschar
  rw [BitVec.toNat_setWidth, BitVec.toNat_ushiftRight, Nat.shiftRight_eq_div_pow]
  simp
  omega

end Saber.M0
