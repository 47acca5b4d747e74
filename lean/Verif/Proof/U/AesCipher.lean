import Verif.Proof.U.AesKey
/-!
# AES: the block cipher on four blocks
-/
namespace Saber.U.Aes
open Saber.Spec.Aes

/-! ### The expanded key -/

/-- Eight consecutive words. -/
def qk (sk : List (BitVec 64)) (off : Nat) : Q (BitVec 64) :=
  ⟨sk.getD (off + 0) 0, sk.getD (off + 1) 0, sk.getD (off + 2) 0, sk.getD (off + 3) 0,
   sk.getD (off + 4) 0, sk.getD (off + 5) 0, sk.getD (off + 6) 0, sk.getD (off + 7) 0⟩

theorem get_qk (sk : List (BitVec 64)) (off i : Nat) (hi : i < 8) : (qk sk off).get i = sk.getD (off + i) 0 := by
  interval_cases i <;> rfl

/-- `sk` is the bit-sliced form of the key schedule of `key`. -/
structure SkOk (key : List Byte) (sk : List (BitVec 64)) : Prop where
  len : sk.length = 120
  bits : ∀ v, v < 15 → ∀ p, p < 64 → col (qk sk (8 * v)) p = rkb key v p

theorem wrs_four {α : Type} (a : List α) (i : Nat) (v0 v1 v2 v3 : α) : wrs a i [v0, v1, v2, v3] = (do
    let a ← wr a i v0
    let a ← wr a (i + 1) v1
    let a ← wr a (i + 2) v2
    wr a (i + 3) v3) := by
  have : ∀ m : CM (List α), (m >>= fun a => .ok a) = m := by intro m; cases m <;> rfl
  simp only [wrs, this, Nat.add_assoc, Nat.reduceAdd]

theorem expandStep_eq (comp sk : List (BitVec 64)) (u : Nat) (hu : u < comp.length) : expandStep comp u sk = wrs sk (0 + 4 * u)
    [((((comp.getD u 0) &&& 0x1111111111111111#64) >>> 0) <<< 4) - (((comp.getD u 0) &&& 0x1111111111111111#64) >>> 0),
     ((((comp.getD u 0) &&& 0x2222222222222222#64) >>> 1) <<< 4) - (((comp.getD u 0) &&& 0x2222222222222222#64) >>> 1),
     ((((comp.getD u 0) &&& 0x4444444444444444#64) >>> 2) <<< 4) - (((comp.getD u 0) &&& 0x4444444444444444#64) >>> 2),
     ((((comp.getD u 0) &&& 0x8888888888888888#64) >>> 3) <<< 4) - (((comp.getD u 0) &&& 0x8888888888888888#64) >>> 3)] := by
  unfold expandStep
  rw [rd_ok 0 hu, ok_bind]
  dsimp only
  rw [BitVec.ushiftRight_zero, Nat.zero_add, Nat.add_zero]
  rw [wrs_four]

theorem skey_expand_ok (key : List Byte) (sk comp : List (BitVec 64)) (hs : sk.length = 120) (hc : comp.length = 30)
    (hb : ∀ u, u < 15 → ∀ i, i < 2 → ∀ p, p < 64 → (comp.getD (2 * u + i) 0).getLsbD p = (rkb key u p).getLsbD (4 * i + p % 4)) :
    Ok (skey_expand sk comp) (SkOk key) := by
  unfold skey_expand
  rw [loop_blocks 4 (fun u =>
    [((((comp.getD u 0) &&& 0x1111111111111111#64) >>> 0) <<< 4) - (((comp.getD u 0) &&& 0x1111111111111111#64) >>> 0),
     ((((comp.getD u 0) &&& 0x2222222222222222#64) >>> 1) <<< 4) - (((comp.getD u 0) &&& 0x2222222222222222#64) >>> 1),
     ((((comp.getD u 0) &&& 0x4444444444444444#64) >>> 2) <<< 4) - (((comp.getD u 0) &&& 0x4444444444444444#64) >>> 2),
     ((((comp.getD u 0) &&& 0x8888888888888888#64) >>> 3) <<< 4) - (((comp.getD u 0) &&& 0x8888888888888888#64) >>> 3)])
    (fun _ => rfl) 30 sk 0 (by omega) _ (fun u a' hu _ => expandStep_eq comp a' u (by omega))]
  refine Ok.pure ⟨?_, ?_⟩
  · rw [length_writeAt _ _ _ (by simp [hs]), hs]
  · intro v hv p hp
    apply BitVec.eq_of_getLsbD_eq
    intro r hr
    rw [getLsbD_col _ _ _ hr, get_qk _ _ _ hr, writeAt_prefix, List.getD_append _ _ _ _ (by simp; omega),
      getD_flatMap_range 4 (by decide) _ (fun _ => rfl) _ _ _ (by omega), show (8 * v + r) / 4 = 2 * v + r / 4 by omega,
      show (8 * v + r) % 4 = r % 4 by omega]
    have key1 : ∀ j, j < 4 → ((comp.getD (2 * v + r / 4) 0).getLsbD (4 * (p / 4) + j)) = (rkb key v p).getLsbD (4 * (r / 4) + j) := by
      intro j hj
      rw [hb v hv (r / 4) (by omega) _ (by omega), rkb, rkb, show (4 * (p / 4) + j) / 4 % 4 = p / 4 % 4 by omega,
        show (4 * (p / 4) + j) / 16 = p / 16 by omega, show (4 * (p / 4) + j) % 4 = j by omega]
    rw [show (rkb key v p).getLsbD r = (rkb key v p).getLsbD (4 * (r / 4) + r % 4) by congr 1; omega, ← key1 _ (by omega)]
    have hr4 : r % 4 < 4 := by omega
    generalize r % 4 = m at *
    interval_cases m
    · exact mask_bit _ 0 m0_bit _ _ hp (by decide)
    · exact mask_bit _ 1 m1_bit _ _ hp (by decide)
    · exact mask_bit _ 2 m2_bit _ _ hp (by decide)
    · exact mask_bit _ 3 m3_bit _ _ hp (by decide)

theorem ctr_init_ok (sk : List (BitVec 64)) (key : List Byte) (off : Nat) (hs : sk.length = 120) (hk : off + 32 ≤ key.length) :
    Ok (ctr_init sk key off) (SkOk ((key.drop off).take 32)) := by
  unfold ctr_init
  exact (keysched_ok _ key off (length_uninit _ _ _) hk).bind fun c hc => skey_expand_ok _ sk c hs hc.1 hc.2

/-! ### The four blocks of a bit-sliced state -/

/-- Block number `b` of a bit-sliced state. -/
def blk (q : Q (BitVec 64)) (b : Nat) : List Byte := (List.range 16).map fun k => col q (16 * (k % 4) + 4 * (k / 4) + b)

theorem getD_blk (q : Q (BitVec 64)) (b k : Nat) (hk : k < 16) : (blk q b).getD k 0 = col q (16 * (k % 4) + 4 * (k / 4) + b) := by
  rw [blk, getD_map_range _ _ _ _ hk]

theorem length_blk (q : Q (BitVec 64)) (b : Nat) : (blk q b).length = 16 := by simp [blk]

theorem map_range_congr {α : Type} {n : Nat} {f g : Nat → α} (h : ∀ k, k < n → f k = g k) : (List.range n).map f = (List.range n).map g :=
  List.map_congr_left fun k hk => h k (List.mem_range.1 hk)

theorem blk_Sbox (q : Q (BitVec 64)) (b : Nat) (hb : b < 4) : blk (bitslice_Sbox q) b = (blk q b).map sbox := by
  rw [blk, blk, List.map_map]
  exact map_range_congr fun k hk => col_Sbox q _ (by omega)

theorem blk_shift_rows (q : Q (BitVec 64)) (b : Nat) (hb : b < 4) : blk (shift_rows q) b = shiftRows (blk q b) := by
  rw [shiftRows, blk]
  refine map_range_congr fun k hk => ?_
  rw [col_shift_rows _ _ (by omega), getD_blk _ _ _ (by omega)]
  congr 1
  unfold srPos
  interval_cases k <;> omega

theorem blk_mix_columns (q : Q (BitVec 64)) (b : Nat) (hb : b < 4) : blk (mix_columns q) b = mixColumns (blk q b) := by
  rw [mixColumns, blk]
  refine map_range_congr fun k hk => ?_
  dsimp only
  rw [col_mix_columns _ _ (by omega), getD_blk _ _ _ (by omega), getD_blk _ _ _ (by omega), getD_blk _ _ _ (by omega), getD_blk _ _ _ (by omega)]
  congr 1
  · congr 1
    · congr 1
      · congr 2; omega
      · congr 2; interval_cases k <;> omega
    · congr 1; interval_cases k <;> omega
  · congr 1; interval_cases k <;> omega

theorem length_xors (a b : List Byte) : (xors a b).length = min a.length b.length := by simp [xors]

theorem length_keyWord (key : List Byte) (h : key.length = 32) : ∀ i, (keyWord key i).length = 4 := by
  intro i
  induction i using Nat.strongRecOn with
  | _ i ih =>
    by_cases h8 : i < 8
    · rw [keyWord_lt _ _ h8, List.length_take, List.length_drop]; omega
    · rw [keyWord_ge _ _ (by omega), length_xors, ih (i - 8) (by omega)]
      have h1 := ih (i - 1) (by omega)
      by_cases h0 : i % 8 = 0
      · rw [if_pos h0, length_xors, List.length_map, List.length_append, List.length_drop, List.length_take, h1]; rfl
      · rw [if_neg h0]
        by_cases h4 : i % 8 = 4
        · rw [if_pos h4, List.length_map, h1]; rfl
        · rw [if_neg h4, h1]; rfl

theorem length_roundKey (key : List Byte) (h : key.length = 32) (i : Nat) : (roundKey key i).length = 16 := by
  rw [roundKey, length_flatMap_range 4 _ (fun j => length_keyWord key h _)]

theorem roundKey_eq (key : List Byte) (h : key.length = 32) (v b : Nat) (hb : b < 4) :
    roundKey key v = (List.range 16).map fun k => rkb key v (16 * (k % 4) + 4 * (k / 4) + b) := by
  apply ext_getD (d := 0)
  · rw [length_roundKey _ h]; simp
  · intro k hk
    rw [length_roundKey _ h] at hk
    rw [getD_map_range _ _ _ _ hk, roundKey, getD_flatMap_range 4 (by decide) _ (fun j => length_keyWord key h _) _ _ _ (by omega), rkb]
    rw [show (16 * (k % 4) + 4 * (k / 4) + b) / 4 % 4 = k / 4 by omega, show (16 * (k % 4) + 4 * (k / 4) + b) / 16 = k % 4 by omega]

theorem col_xor (q q' : Q (BitVec 64)) (p : Nat) : col ⟨q.q0 ^^^ q'.q0, q.q1 ^^^ q'.q1, q.q2 ^^^ q'.q2, q.q3 ^^^ q'.q3, q.q4 ^^^ q'.q4,
    q.q5 ^^^ q'.q5, q.q6 ^^^ q'.q6, q.q7 ^^^ q'.q7⟩ p = col q p ^^^ col q' p := by
  simp only [col, Q.map, BitVec.getLsbD_xor]
  rw [← byte_xor]

theorem zipWith_map_range (f g : Nat → Byte) (n : Nat) : xors ((List.range n).map f) ((List.range n).map g) = (List.range n).map fun k => f k ^^^ g k := by
  rw [xors, List.zipWith_map, List.zipWith_self]

theorem add_round_key_ok (key : List Byte) (hk : key.length = 32) (q : Q (BitVec 64)) (sk : List (BitVec 64)) (h : SkOk key sk) (v : Nat) (hv : v < 15) :
    Ok (add_round_key q sk (8 * v)) fun q' => ∀ b, b < 4 → blk q' b = xors (blk q b) (roundKey key v) := by
  unfold add_round_key
  have hl := h.len
  iterate 8 rw [rd_ok 0 (by omega), ok_bind]
  refine Ok.pure fun b hb => ?_
  rw [roundKey_eq key hk v b hb, blk, blk, zipWith_map_range]
  refine map_range_congr fun k hk' => ?_
  rw [← h.bits v hv _ (by omega)]
  exact col_xor q (qk sk (8 * v)) _

/-- The state after `n` rounds. -/
def rounds (key s : List Byte) (n : Nat) : List Byte :=
  (List.range n).foldl (fun s i => xors (mixColumns (shiftRows (s.map sbox))) (roundKey key (i + 1))) s

theorem rounds_succ (key s : List Byte) (n : Nat) :
    rounds key s (n + 1) = xors (mixColumns (shiftRows ((rounds key s n).map sbox))) (roundKey key (n + 1)) := by
  rw [rounds, List.range_succ, List.foldl_append]; rfl

theorem rounds_loop (key : List Byte) (hk : key.length = 32) (sk : List (BitVec 64)) (h : SkOk key sk) (q : Q (BitVec 64)) (s : Nat → List Byte)
    (hq : ∀ b, b < 4 → blk q b = s b) :
    Ok (loop 13 q (aesRound sk)) fun q' => ∀ b, b < 4 → blk q' b = rounds key (s b) 13 := by
  refine loop_inv (fun n q' => ∀ b, b < 4 → blk q' b = rounds key (s b) n) ?_ ?_
  · intro b hb; rw [hq b hb]; rfl
  · intro i q' hi hq'
    unfold aesRound
    dsimp only
    rw [Nat.mul_comm]
    refine (add_round_key_ok key hk _ sk h (i + 1) (by omega)).mono fun q'' hq'' b hb => ?_
    rw [hq'' b hb, blk_mix_columns _ _ hb, blk_shift_rows _ _ hb, blk_Sbox _ _ hb, hq' b hb, rounds_succ]

/-- The cipher on a bit-sliced state. -/
theorem cipher_ok (key : List Byte) (hk : key.length = 32) (sk : List (BitVec 64)) (h : SkOk key sk) (q : Q (BitVec 64)) :
    Ok (do
      let q ← add_round_key q sk 0
      let q ← loop 13 q (aesRound sk)
      add_round_key (shift_rows (bitslice_Sbox q)) sk 112) fun q' => ∀ b, b < 4 → blk q' b = aes256 key (blk q b) := by
  refine (add_round_key_ok key hk q sk h 0 (by decide)).bind fun q1 h1 => ?_
  refine (rounds_loop key hk sk h q1 _ h1).bind fun q2 h2 => ?_
  refine (add_round_key_ok key hk _ sk h 14 (by decide)).mono fun q3 h3 b hb => ?_
  rw [h3 b hb, blk_shift_rows _ _ hb, blk_Sbox _ _ hb, h2 b hb]
  rfl

theorem length_aes256 (key block : List Byte) (hk : key.length = 32) : (aes256 key block).length = 16 := by
  unfold aes256
  rw [length_xors, length_roundKey _ hk]
  simp [shiftRows]

end Saber.U.Aes
