import Verif.Proof.U.AesOrtho
import Verif.Proof.Indcpa
/-!
# AES: the key schedule
-/
namespace Saber.U.Aes
open Saber.Spec.Aes

/-! ### Words read from bytes -/

/-- The word that `br_dec32le` computes. -/
def decW (src : List Byte) (off : Nat) : BitVec 32 :=
  (src.getD (off + 0) 0).setWidth 32 ||| ((src.getD (off + 1) 0).setWidth 32 <<< 8) ||| ((src.getD (off + 2) 0).setWidth 32 <<< 16)
    ||| ((src.getD (off + 3) 0).setWidth 32 <<< 24)

theorem dec_ok (src : List Byte) (off : Nat) (h : off + 4 ≤ src.length) : br_dec32le src off = .ok (decW src off) := by
  unfold br_dec32le
  iterate 4 rw [rd_ok 0 (by omega), ok_bind]
  rfl

theorem bt_decW (src : List Byte) (off a : Nat) (ha : a < 4) : bt (decW src off) a = src.getD (off + a) 0 := by
  unfold decW
  apply BitVec.eq_of_getLsbD_eq
  intro i hi
  rw [getLsbD_bt _ _ _ hi]
  interval_cases a <;> interval_cases i <;>
    simp [BitVec.getLsbD_or, BitVec.getLsbD_shiftLeft, BitVec.getLsbD_setWidth]

theorem wb_decW (src : List Byte) (off : Nat) (h : off + 4 ≤ src.length) : wb (decW src off) = (src.drop off).take 4 := by
  rw [← map_getD_range src off 4 0 h, wb, bt_decW _ _ _ (by decide), bt_decW _ _ _ (by decide), bt_decW _ _ _ (by decide), bt_decW _ _ _ (by decide)]
  rfl

theorem range_dec_ok (v : List (BitVec 32)) (num : Nat) (src : List Byte) (off : Nat) (hv : num ≤ v.length) (hs : off + 4 * num ≤ src.length) :
    br_range_dec32le v num src off = .ok (writeAt v 0 ((List.range num).map fun i => decW src (off + 4 * i))) := by
  unfold br_range_dec32le
  rw [loop_blocks 1 (fun i => [decW src (off + 4 * i)]) (fun _ => rfl) num v 0 (by omega), flatMap_singleton_eq_map]
  intro j a' hj hl
  rw [dec_ok _ _ (by omega), ok_bind, wr_eq_wrs, Nat.zero_add, Nat.one_mul]

/-! ### The words of the key schedule -/

theorem length_wb (x : BitVec 32) : (wb x).length = 4 := rfl

theorem xors_wb (x y : BitVec 32) : xors (wb x) (wb y) = wb (x ^^^ y) := by
  simp only [wb, xors, List.zipWith_cons_cons, List.zipWith_nil_right, bt_xor]

theorem map_sbox_wb (x : BitVec 32) : (wb x).map sbox = wb (sub_word x) := by
  simp only [wb, List.map_cons, List.map_nil]
  rw [bt_sub_word _ _ (by decide), bt_sub_word _ _ (by decide), bt_sub_word _ _ (by decide), bt_sub_word _ _ (by decide)]

theorem rot_wb (x : BitVec 32) : (wb x).drop 1 ++ (wb x).take 1 = wb ((x <<< 24) ||| (x >>> 8)) := by
  unfold wb
  rw [bt_rot _ _ (by decide), bt_rot _ _ (by decide), bt_rot _ _ (by decide), bt_rot _ _ (by decide)]
  rfl

theorem Rcon_eq : ∀ k, k < 7 → [Rcon.getD k 0, 0, 0, 0] = rcon (k + 1) := by decide +kernel

theorem wb_rcon (k : Nat) (hk : k < 7) : wb ((Rcon.getD k 0).setWidth 32) = rcon (k + 1) := by
  rw [← Rcon_eq k hk]; simp only [wb, bt_setWidth]; rfl

theorem keyWord_lt (key : List Byte) (i : Nat) (h : i < 8) : keyWord key i = (key.drop (4 * i)).take 4 := by rw [keyWord, if_pos h]

theorem keyWord_ge (key : List Byte) (i : Nat) (h : 8 ≤ i) : keyWord key i =
    xors (keyWord key (i - 8)) (if i % 8 = 0 then xors (((keyWord key (i - 1)).drop 1 ++ (keyWord key (i - 1)).take 1).map sbox) (rcon (i / 8))
      else if i % 8 = 4 then (keyWord key (i - 1)).map sbox else keyWord key (i - 1)) := by
  rw [keyWord, if_neg (by omega)]

theorem wb_inj {x y : BitVec 32} (h : wb x = wb y) : x = y := by
  simp only [wb, List.cons.injEq, and_true] at h
  apply ext_bt
  intro a ha
  interval_cases a
  · exact h.1
  · exact h.2.1
  · exact h.2.2.1
  · exact h.2.2.2

/-- Invariant of the first loop after `n` iterations. -/
structure KInv (key : List Byte) (n : Nat) (s : KS) : Prop where
  len : s.skey.length = 60
  words : ∀ i, i < 8 + n → wb (s.skey.getD i 0) = keyWord key i
  tmp : wb s.tmp = keyWord key (7 + n)
  j : s.j = n % 8
  k : s.k = n / 8

theorem keyStep_ok (key : List Byte) (n : Nat) (s : KS) (hn : n < 52) (h : KInv key n s) : Ok (keyStep n s) (KInv key (n + 1)) := by
  obtain ⟨skey, tmp, j, k⟩ := s
  obtain ⟨hl, hw, ht, hj, hk⟩ := h
  dsimp only at hl hw ht hj hk
  subst hj; subst hk
  have hRl : Rcon.length = 10 := rfl
  have hstep : ∃ t, keyTmp ⟨skey, tmp, n % 8, n / 8⟩ = .ok t ∧
      xors (keyWord key n) (wb t) = keyWord key (8 + n) := by
    rw [keyWord_ge _ (8 + n) (by omega), show 8 + n - 8 = n by omega, show 8 + n - 1 = 7 + n by omega, show (8 + n) % 8 = n % 8 by omega,
      show (8 + n) / 8 = n / 8 + 1 by omega, ← ht]
    unfold keyTmp
    dsimp only
    by_cases h0 : n % 8 = 0
    · rw [if_pos h0, if_pos h0, rd_ok 0 (by omega), ok_bind]
      exact ⟨_, rfl, by rw [rot_wb, map_sbox_wb, ← wb_rcon _ (by omega), xors_wb]⟩
    · rw [if_neg h0, if_neg h0]
      by_cases h4 : n % 8 = 4
      · rw [if_pos h4, if_pos h4]
        exact ⟨_, rfl, by rw [map_sbox_wb]⟩
      · rw [if_neg h4, if_neg h4]
        exact ⟨_, rfl, rfl⟩
  obtain ⟨t, ht1, ht2⟩ := hstep
  unfold keyStep
  dsimp only
  rw [ht1, ok_bind, rd_ok 0 (by omega), ok_bind, wr_ok (by omega), ok_bind, show 8 + n - 8 = n by omega]
  have hnew : wb (t ^^^ skey.getD n 0) = keyWord key (8 + n) := by
    rw [← ht2, BitVec.xor_comm, ← xors_wb, hw n (by omega)]
  have hwords : ∀ i, i < 8 + (n + 1) → wb ((skey.set (8 + n) (t ^^^ skey.getD n 0)).getD i 0) = keyWord key i := by
    intro i hi
    rw [getD_set]
    by_cases he : 8 + n = i
    · rw [if_pos ⟨he, by omega⟩, hnew, he]
    · rw [if_neg (by omega), hw i (by omega)]
  by_cases h8 : n % 8 + 1 = 8
  · rw [if_pos h8]
    exact Ok.pure ⟨by simp [hl], hwords, by rw [hnew]; congr 1; omega, by dsimp only; omega, by dsimp only; omega⟩
  · rw [if_neg h8]
    exact Ok.pure ⟨by simp [hl], hwords, by rw [hnew]; congr 1; omega, by dsimp only; omega, by dsimp only; omega⟩

/-! ### The compressed and the expanded round keys -/

theorem interleave_in_ok (w : List (BitVec 32)) (off : Nat) (h : off + 4 ≤ w.length) : interleave_in w off =
    .ok (spread ((w.getD (off + 0) 0).setWidth 64) ||| (spread ((w.getD (off + 2) 0).setWidth 64) <<< 8),
      spread ((w.getD (off + 1) 0).setWidth 64) ||| (spread ((w.getD (off + 3) 0).setWidth 64) <<< 8)) := by
  unfold interleave_in
  iterate 4 rw [rd_ok 0 (by omega), ok_bind]
  rfl

/-- Byte of round key `u` at position `p` of the bit-sliced state. -/
def rkb (key : List Byte) (u p : Nat) : Byte := (keyWord key (4 * u + p / 4 % 4)).getD (p / 16) 0

theorem getD_wb (x : BitVec 32) (a : Nat) (ha : a < 4) : (wb x).getD a 0 = bt x a := by
  interval_cases a <;> rfl

/-- The bit-sliced form of a round key. -/
theorem col_key (key : List Byte) (skey : List (BitVec 32)) (u : Nat)
    (hw : ∀ i, i < 60 → wb (skey.getD i 0) = keyWord key i) (hu : u < 15) (p : Nat) (hp : p < 64) (a b : BitVec 64)
    (ha : a = spread ((skey.getD (4 * u + 0) 0).setWidth 64) ||| (spread ((skey.getD (4 * u + 2) 0).setWidth 64) <<< 8))
    (hb : b = spread ((skey.getD (4 * u + 1) 0).setWidth 64) ||| (spread ((skey.getD (4 * u + 3) 0).setWidth 64) <<< 8)) :
    col (ortho ⟨a, a, a, a, b, b, b, b⟩) p = rkb key u p := by
  rw [col_ortho _ _ hp, rkb, ← hw _ (by omega), getD_wb _ _ (by omega)]
  have hq : Q.get ⟨a, a, a, a, b, b, b, b⟩ (p % 8) = if p / 4 % 2 = 0 then a else b := by
    rw [show p / 4 % 2 = p % 8 / 4 by omega]
    have : p % 8 < 8 := by omega
    generalize p % 8 = m at *
    interval_cases m <;> rfl
  rw [hq]
  by_cases h : p / 4 % 2 = 0
  · rw [if_pos h, ha, bt_interleave _ _ _ (by omega), show p / 8 / 2 = p / 16 by omega]
    by_cases h2 : p / 8 % 2 = 0
    · rw [if_pos h2, show p / 4 % 4 = 0 by omega]
    · rw [if_neg h2, show p / 4 % 4 = 2 by omega]
  · rw [if_neg h, hb, bt_interleave _ _ _ (by omega), show p / 8 / 2 = p / 16 by omega]
    by_cases h2 : p / 8 % 2 = 0
    · rw [if_pos h2, show p / 4 % 4 = 1 by omega]
    · rw [if_neg h2, show p / 4 % 4 = 3 by omega]

theorem keysched_ok (comp : List (BitVec 64)) (key : List Byte) (off : Nat) (hc : comp.length = 30) (hk : off + 32 ≤ key.length) :
    Ok (keysched comp key off) fun c => c.length = 30 ∧ ∀ u, u < 15 → ∀ i, i < 2 → ∀ p, p < 64 →
      (c.getD (2 * u + i) 0).getLsbD p = (rkb ((key.drop off).take 32) u p).getLsbD (4 * i + p % 4) := by
  unfold keysched
  have hl0 : ((List.range 8).map fun i => decW key (off + 4 * i)).length = 8 := by simp
  rw [range_dec_ok _ _ _ _ (by rw [length_uninit]; omega) (by omega), ok_bind, rd_ok 0 (by rw [length_writeAt _ _ _ (by rw [length_uninit]; omega), length_uninit]; omega), ok_bind]
  have hw8 : ∀ i, i < 8 → wb ((writeAt (uninit 32 80 60) 0 ((List.range 8).map fun i => decW key (off + 4 * i))).getD i 0) = keyWord ((key.drop off).take 32) i := by
    intro i hi
    rw [writeAt_prefix, List.getD_append _ _ _ _ (by omega), getD_map_range _ _ _ _ hi, wb_decW _ _ (by omega), keyWord_lt _ _ hi, List.drop_take,
      List.take_take, List.drop_drop, Nat.min_eq_left (by omega)]
  have h0 : KInv ((key.drop off).take 32) 0 ⟨writeAt (uninit 32 80 60) 0 ((List.range 8).map fun i => decW key (off + 4 * i)),
      (writeAt (uninit 32 80 60) 0 ((List.range 8).map fun i => decW key (off + 4 * i))).getD 7 0, 0, 0⟩ :=
    ⟨by rw [length_writeAt _ _ _ (by rw [length_uninit]; omega), length_uninit], fun i hi => hw8 i (by omega), hw8 7 (by decide), rfl, rfl⟩
  refine (loop_inv (KInv ((key.drop off).take 32)) h0 (fun i s hi hs => keyStep_ok _ _ _ hi hs)).bind fun s hs => ?_
  obtain ⟨hl, hw, -, -, -⟩ := hs
  generalize (key.drop off).take 32 = key' at *
  generalize s.skey = skey at *
  let q : Nat → Q (BitVec 64) := fun n =>
    let a := spread ((skey.getD (4 * n + 0) 0).setWidth 64) ||| (spread ((skey.getD (4 * n + 2) 0).setWidth 64) <<< 8)
    let b := spread ((skey.getD (4 * n + 1) 0).setWidth 64) ||| (spread ((skey.getD (4 * n + 3) 0).setWidth 64) <<< 8)
    ortho ⟨a, a, a, a, b, b, b, b⟩
  rw [loop_blocks 2 (fun n => [((q n).q0 &&& 0x1111111111111111#64) ||| ((q n).q1 &&& 0x2222222222222222#64) |||
      ((q n).q2 &&& 0x4444444444444444#64) ||| ((q n).q3 &&& 0x8888888888888888#64),
      ((q n).q4 &&& 0x1111111111111111#64) ||| ((q n).q5 &&& 0x2222222222222222#64) |||
      ((q n).q6 &&& 0x4444444444444444#64) ||| ((q n).q7 &&& 0x8888888888888888#64)]) (fun _ => rfl) 15 comp 0 (by omega)]
  · refine Ok.pure ⟨?_, ?_⟩
    · rw [length_writeAt _ _ _ (by simp [hc]), hc]
    · intro u hu i hi p hp
      rw [writeAt_prefix, List.getD_append _ _ _ _ (by simp; omega), getD_flatMap_range 2 (by decide) _ (fun _ => rfl) _ _ _ (by omega),
        show (2 * u + i) / 2 = u by omega, show (2 * u + i) % 2 = i by omega]
      have hcol : ∀ r, r < 8 → ((q u).get r).getLsbD p = (rkb key' u p).getLsbD r := by
        intro r hr
        rw [← getLsbD_col _ _ _ hr, col_key key' skey u (fun i hi => hw i (by omega)) hu p hp _ _ rfl rfl]
      have hp4 : p % 4 < 4 := by omega
      interval_cases i
      · rw [List.getD_cons_zero, merge_bit _ _ _ _ _ hp]
        revert hp4
        generalize hm : p % 4 = m
        intro hp4
        interval_cases m
        · exact hcol 0 (by decide)
        · exact hcol 1 (by decide)
        · exact hcol 2 (by decide)
        · exact hcol 3 (by decide)
      · rw [List.getD_cons_succ, List.getD_cons_zero, merge_bit _ _ _ _ _ hp]
        revert hp4
        generalize hm : p % 4 = m
        intro hp4
        interval_cases m
        · exact hcol 4 (by decide)
        · exact hcol 5 (by decide)
        · exact hcol 6 (by decide)
        · exact hcol 7 (by decide)
  · intro n a' hn hl'
    unfold keyComp
    rw [interleave_in_ok _ _ (by omega), ok_bind]
    dsimp only
    rw [Nat.zero_add, wrs, Nat.add_zero]
    simp only [← wr_eq_wrs]
    rfl

end Saber.U.Aes
