import Verif.Proof.U.AesCipher
/-!
# AES in counter mode
-/
namespace Saber.U.Aes
open Saber.Spec.Aes

/-! ### One call of `aes_ctr4x` -/

/-- The bit-sliced form of sixteen words. -/
def qin (w : List (BitVec 32)) : Q (BitVec 64) :=
  let a := fun b => spread ((w.getD (4 * b + 0) 0).setWidth 64) ||| (spread ((w.getD (4 * b + 2) 0).setWidth 64) <<< 8)
  let c := fun b => spread ((w.getD (4 * b + 1) 0).setWidth 64) ||| (spread ((w.getD (4 * b + 3) 0).setWidth 64) <<< 8)
  ⟨a 0, a 1, a 2, a 3, c 0, c 1, c 2, c 3⟩

theorem col_in (w : List (BitVec 32)) (p : Nat) (hp : p < 64) : col (ortho (qin w)) p = bt (w.getD (4 * (p % 4) + p / 4 % 4) 0) (p / 16) := by
  rw [col_ortho _ _ hp]
  have hq : (qin w).get (p % 8) = spread ((w.getD (4 * (p % 4) + p / 4 % 2) 0).setWidth 64) ||| (spread ((w.getD (4 * (p % 4) + (p / 4 % 2 + 2)) 0).setWidth 64) <<< 8) := by
    rw [show p / 4 % 2 = p % 8 / 4 by omega, show p % 4 = p % 8 % 4 by omega]
    have : p % 8 < 8 := by omega
    generalize p % 8 = m at *
    interval_cases m <;> rfl
  rw [hq, bt_interleave _ _ _ (by omega), show p / 8 / 2 = p / 16 by omega]
  by_cases h : p / 8 % 2 = 0
  · rw [if_pos h, show p / 4 % 4 = p / 4 % 2 by omega]
  · rw [if_neg h, show p / 4 % 4 = p / 4 % 2 + 2 by omega]

/-- Block `b` of sixteen words. -/
def wblk (w : List (BitVec 32)) (b : Nat) : List Byte := (List.range 4).flatMap fun c => wb (w.getD (4 * b + c) 0)

theorem length_wblk (w : List (BitVec 32)) (b : Nat) : (wblk w b).length = 16 := rfl

theorem getD_wblk (w : List (BitVec 32)) (b k : Nat) (hk : k < 16) : (wblk w b).getD k 0 = bt (w.getD (4 * b + k / 4) 0) (k % 4) := by
  rw [wblk, getD_flatMap_range 4 (by decide) _ (fun _ => rfl) _ _ _ (by omega), getD_wb _ _ (by omega)]

theorem blk_in (w : List (BitVec 32)) (b : Nat) (hb : b < 4) : blk (ortho (qin w)) b = wblk w b := by
  apply ext_getD 0
  · rw [length_blk, length_wblk]
  · intro k hk
    rw [length_blk] at hk
    rw [getD_blk _ _ _ hk, getD_wblk _ _ _ hk, col_in _ _ (by omega)]
    congr 2 <;> omega

theorem interleave_out_ok (w : List (BitVec 32)) (off : Nat) (q0 q1 : BitVec 64) (h : off + 4 ≤ w.length) :
    interleave_out w off q0 q1 = .ok (writeAt w off [gather (q0 &&& 0x00FF00FF00FF00FF#64), gather (q1 &&& 0x00FF00FF00FF00FF#64),
      gather ((q0 >>> 8) &&& 0x00FF00FF00FF00FF#64), gather ((q1 >>> 8) &&& 0x00FF00FF00FF00FF#64)]) := by
  rw [← wrs_ok _ _ _ h, wrs_four]
  unfold interleave_out
  dsimp only
  rw [Nat.add_zero]

/-- The four words of block `b` after the cipher. -/
def wout (q : Q (BitVec 64)) (b : Nat) : List (BitVec 32) :=
  [gather ((ortho q).get b &&& 0x00FF00FF00FF00FF#64), gather ((ortho q).get (b + 4) &&& 0x00FF00FF00FF00FF#64),
    gather (((ortho q).get b >>> 8) &&& 0x00FF00FF00FF00FF#64), gather (((ortho q).get (b + 4) >>> 8) &&& 0x00FF00FF00FF00FF#64)]

theorem bt_wout (q : Q (BitVec 64)) (b c r : Nat) (hb : b < 4) (hc : c < 4) (hr : r < 4) :
    bt ((wout q b).getD c 0) r = col q (16 * r + 4 * c + b) := by
  interval_cases c
  · refine (bt_gather_even _ _ hr).trans ?_
    rw [bt_ortho _ _ _ (by omega) (by omega)]; congr 1; omega
  · refine (bt_gather_even _ _ hr).trans ?_
    rw [bt_ortho _ _ _ (by omega) (by omega)]; congr 1; omega
  · refine (bt_gather_odd _ _ hr).trans ?_
    rw [bt_ortho _ _ _ (by omega) (by omega)]; congr 1; omega
  · refine (bt_gather_odd _ _ hr).trans ?_
    rw [bt_ortho _ _ _ (by omega) (by omega)]; congr 1; omega

theorem enc_ok (dst : List Byte) (off : Nat) (x : BitVec 32) (h : off + 4 ≤ dst.length) : br_enc32le dst off x = wrs dst off (wb x) := by
  unfold br_enc32le wb
  rw [wrs_four, Nat.add_zero]
  simp only [bt, Nat.mul_zero, Nat.mul_one, BitVec.ushiftRight_zero, Nat.reduceMul]

theorem range_enc_ok (dst : List Byte) (off : Nat) (v : List (BitVec 32)) (num : Nat) (hd : off + 4 * num ≤ dst.length) (hv : num ≤ v.length) :
    br_range_enc32le dst off v num = .ok (writeAt dst off ((List.range num).flatMap fun i => wb (v.getD i 0))) := by
  unfold br_range_enc32le
  refine loop_blocks 4 (fun i => wb (v.getD i 0)) (fun _ => rfl) num dst off hd _ fun j a' hj ha => ?_
  rw [rd_ok 0 (by omega), ok_bind, enc_ok _ _ _ (by omega)]

/-- The words of the counter blocks: nonce and counter, for the counters `c`, ..., `c + 3`. -/
structure IV (nonce : List Byte) (c : Nat) (ivw : List (BitVec 32)) : Prop where
  len : ivw.length = 16
  non : ∀ b, b < 4 → ∀ k, k < 3 → wb (ivw.getD (4 * b + k) 0) = (nonce.drop (4 * k)).take 4
  ctr : ∀ b, b < 4 → ivw.getD (4 * b + 3) 0 = br_swap32 (BitVec.ofNat 32 (c + b))

theorem wb_swap (n : Nat) : wb (br_swap32 (BitVec.ofNat 32 n)) = be32 n := by
  have h : ∀ a, a < 4 → bt (BitVec.ofNat 32 n) a = BitVec.ofNat 8 (n / 2 ^ (8 * a)) := by
    intro a ha
    apply BitVec.eq_of_getLsbD_eq
    intro i hi
    rw [getLsbD_bt _ _ _ hi, BitVec.getLsbD_ofNat, BitVec.getLsbD_ofNat, Nat.testBit_div_two_pow, decide_eq_true (by omega : 8 * a + i < 32), decide_eq_true hi]
    congr 2; omega
  unfold wb be32
  rw [bt_swap _ _ (by decide), bt_swap _ _ (by decide), bt_swap _ _ (by decide), bt_swap _ _ (by decide), h _ (by decide), h _ (by decide), h _ (by decide),
    h _ (by decide)]
  norm_num

theorem IV.block {nonce : List Byte} {c : Nat} {ivw : List (BitVec 32)} (h : IV nonce c ivw) (hn : nonce.length = 12) (b : Nat) (hb : b < 4) :
    wblk ivw b = nonce ++ be32 (c + b) := by
  have e : wblk ivw b = wb (ivw.getD (4 * b + 0) 0) ++ (wb (ivw.getD (4 * b + 1) 0) ++ (wb (ivw.getD (4 * b + 2) 0) ++ wb (ivw.getD (4 * b + 3) 0))) := rfl
  rw [e, h.non b hb 0 (by decide), h.non b hb 1 (by decide), h.non b hb 2 (by decide), h.ctr b hb, wb_swap, ← List.append_assoc, ← List.append_assoc]
  congr 1
  apply ext_getD 0
  · simp [hn]
  · intro i hi
    obtain ⟨n0, n1, n2, n3, n4, n5, n6, n7, n8, n9, n10, n11, rfl⟩ : ∃ n0 n1 n2 n3 n4 n5 n6 n7 n8 n9 n10 n11, nonce = [n0, n1, n2, n3, n4, n5, n6, n7, n8, n9, n10, n11] := by
      rcases nonce with _ | ⟨n0, _ | ⟨n1, _ | ⟨n2, _ | ⟨n3, _ | ⟨n4, _ | ⟨n5, _ | ⟨n6, _ | ⟨n7, _ | ⟨n8, _ | ⟨n9, _ | ⟨n10, _ | ⟨n11, _ | ⟨n12, t⟩⟩⟩⟩⟩⟩⟩⟩⟩⟩⟩⟩⟩ <;> simp at hn
      exact ⟨_, _, _, _, _, _, _, _, _, _, _, _, rfl⟩
    rfl

theorem inc4_be_ok (ivw : List (BitVec 32)) (i n : Nat) (hi : i < ivw.length) (h : ivw.getD i 0 = br_swap32 (BitVec.ofNat 32 n)) :
    inc4_be ivw i = .ok (ivw.set i (br_swap32 (BitVec.ofNat 32 (n + 4)))) := by
  unfold inc4_be
  rw [rd_ok 0 hi, ok_bind]
  dsimp only
  rw [wr_ok hi, h, swap_swap]
  congr 3
  rw [BitVec.ofNat_add]; rfl

theorem inc_ok (nonce : List Byte) (c : Nat) (ivw : List (BitVec 32)) (h : IV nonce c ivw) : ∃ i1 i2 i3 i4, inc4_be ivw 3 = .ok i1 ∧
    inc4_be i1 7 = .ok i2 ∧ inc4_be i2 11 = .ok i3 ∧ inc4_be i3 15 = .ok i4 ∧ IV nonce (c + 4) i4 := by
  have hl := h.len
  have h0 := h.ctr 0 (by decide)
  have h1 := h.ctr 1 (by decide)
  have h2 := h.ctr 2 (by decide)
  have h3 := h.ctr 3 (by decide)
  simp only [Nat.reduceMul, Nat.reduceAdd] at h0 h1 h2 h3
  refine ⟨_, _, _, _, inc4_be_ok _ 3 _ (by omega) h0, inc4_be_ok _ 7 (c + 1) (by simp; omega) (by rw [getD_set, if_neg (by omega)]; exact h1),
    inc4_be_ok _ 11 (c + 2) (by simp; omega) (by simp only [getD_set, List.length_set]; rw [if_neg (by omega), if_neg (by omega)]; exact h2),
    inc4_be_ok _ 15 (c + 3) (by simp; omega)
      (by simp only [getD_set, List.length_set]; rw [if_neg (by omega), if_neg (by omega), if_neg (by omega)]; exact h3), ?_⟩
  refine ⟨by simp [hl], ?_, ?_⟩
  · intro b hb k hk
    simp only [getD_set, List.length_set]
    rw [if_neg (by omega), if_neg (by omega), if_neg (by omega), if_neg (by omega)]
    exact h.non b hb k hk
  · intro b hb
    simp only [getD_set, List.length_set]
    interval_cases b <;> simp [hl]

/-- The key stream of four blocks. -/
def ks4 (key nonce : List Byte) (c : Nat) : List Byte := (List.range 4).flatMap fun b => aes256 key (nonce ++ be32 (c + b))

theorem aes_ctr4x_ok (key nonce : List Byte) (c : Nat) (hk : key.length = 32) (hn : nonce.length = 12) (out : List Byte) (off : Nat) (ivw : List (BitVec 32))
    (sk : List (BitVec 64)) (hs : SkOk key sk) (hi : IV nonce c ivw) (ho : off + 64 ≤ out.length) :
    Ok (aes_ctr4x out off ivw sk) fun r => r.1 = writeAt out off (ks4 key nonce c) ∧ IV nonce (c + 4) r.2 := by
  unfold aes_ctr4x
  have hl := hi.len
  rw [memcpy_ok _ _ _ _ _ (by omega) (by rw [length_uninit]), ok_bind, List.drop_zero, List.take_of_length_le (by omega),
    writeAt_full _ _ (by rw [length_uninit, hl]), interleave_in_ok _ _ (by omega), ok_bind]
  dsimp only
  rw [interleave_in_ok _ _ (by omega), ok_bind]
  dsimp only
  rw [interleave_in_ok _ _ (by omega), ok_bind]
  dsimp only
  rw [interleave_in_ok _ _ (by omega), ok_bind]
  dsimp only
  obtain ⟨q1, e1, h1⟩ := add_round_key_ok key hk (ortho (qin ivw)) sk hs 0 (by decide)
  obtain ⟨q2, e2, h2⟩ := rounds_loop key hk sk hs q1 _ h1
  obtain ⟨q3, e3, h3⟩ := add_round_key_ok key hk (shift_rows (bitslice_Sbox q2)) sk hs 14 (by decide)
  have hout : ∀ b, b < 4 → blk q3 b = aes256 key (nonce ++ be32 (c + b)) := by
    intro b hb
    rw [h3 b hb, blk_shift_rows _ _ hb, blk_Sbox _ _ hb, h2 b hb, blk_in _ _ hb, hi.block hn b hb]
    rfl
  unfold qin at e1
  dsimp only [Nat.reduceMul, Nat.reduceAdd] at e1 e3
  dsimp only [Nat.reduceMul, Nat.reduceAdd]
  rw [e1, ok_bind, e2, ok_bind, e3, ok_bind]
  have hw : ∀ b, (wout q3 b).length = 4 := fun _ => rfl
  have l1 : (writeAt ivw 0 (wout q3 0)).length = 16 := by rw [length_writeAt _ _ _ (by rw [hw]; omega), hl]
  have l2 : (writeAt (writeAt ivw 0 (wout q3 0)) 4 (wout q3 1)).length = 16 := by rw [length_writeAt _ _ _ (by rw [hw]; omega), l1]
  have l3 : (writeAt (writeAt (writeAt ivw 0 (wout q3 0)) 4 (wout q3 1)) 8 (wout q3 2)).length = 16 := by rw [length_writeAt _ _ _ (by rw [hw]; omega), l2]
  have l4 : (writeAt (writeAt (writeAt (writeAt ivw 0 (wout q3 0)) 4 (wout q3 1)) 8 (wout q3 2)) 12 (wout q3 3)).length = 16 := by
    rw [length_writeAt _ _ _ (by rw [hw]; omega), l3]
  rw [show interleave_out ivw 0 (ortho q3).q0 (ortho q3).q4 = .ok (writeAt ivw 0 (wout q3 0)) from interleave_out_ok _ _ _ _ (by omega), ok_bind,
    show interleave_out (writeAt ivw 0 (wout q3 0)) 4 (ortho q3).q1 (ortho q3).q5 = .ok (writeAt _ 4 (wout q3 1)) from interleave_out_ok _ _ _ _ (by omega), ok_bind,
    show interleave_out (writeAt (writeAt ivw 0 (wout q3 0)) 4 (wout q3 1)) 8 (ortho q3).q2 (ortho q3).q6 = .ok (writeAt _ 8 (wout q3 2))
      from interleave_out_ok _ _ _ _ (by omega), ok_bind,
    show interleave_out (writeAt (writeAt (writeAt ivw 0 (wout q3 0)) 4 (wout q3 1)) 8 (wout q3 2)) 12 (ortho q3).q3 (ortho q3).q7 = .ok (writeAt _ 12 (wout q3 3))
      from interleave_out_ok _ _ _ _ (by omega), ok_bind]
  rw [range_enc_ok _ _ _ _ (by omega) (by omega), ok_bind]
  obtain ⟨i1, i2, i3, i4, f1, f2, f3, f4, hiv⟩ := inc_ok nonce c ivw hi
  rw [f1, ok_bind, f2, ok_bind, f3, ok_bind, f4, ok_bind]
  refine Ok.pure ⟨?_, hiv⟩
  dsimp only
  congr 1
  have hW : writeAt (writeAt (writeAt (writeAt ivw 0 (wout q3 0)) 4 (wout q3 1)) 8 (wout q3 2)) 12 (wout q3 3) = (List.range 4).flatMap (wout q3) := by
    have a1 := writeAt_append ivw 0 (wout q3 0) (wout q3 1) (by simp only [hw]; omega)
    have a2 := writeAt_append ivw 0 (wout q3 0 ++ wout q3 1) (wout q3 2) (by simp only [List.length_append, hw]; omega)
    have a3 := writeAt_append ivw 0 (wout q3 0 ++ wout q3 1 ++ wout q3 2) (wout q3 3) (by simp only [List.length_append, hw]; omega)
    simp only [List.length_append, hw, Nat.zero_add, Nat.reduceAdd] at a1 a2 a3
    rw [a1, a2, a3, writeAt_full _ _ (by simp only [List.length_append, hw]; omega)]
    rfl
  rw [hW, ks4]
  apply ext_getD 0
  · rw [length_flatMap_range 4 _ (fun _ => rfl), length_flatMap_range 16 _ (fun _ => length_aes256 _ _ hk)]
  · intro n hn'
    rw [length_flatMap_range 4 _ (fun _ => rfl)] at hn'
    rw [getD_flatMap_range 4 (by decide) _ (fun _ => rfl) _ _ _ hn', getD_flatMap_range 4 (by decide) _ (fun _ => rfl) _ _ _ (by omega),
      getD_flatMap_range 16 (by decide) _ (fun _ => length_aes256 _ _ hk) _ _ _ (by omega), ← hout _ (by omega), getD_wb _ _ (by omega),
      bt_wout _ _ _ _ (by omega) (by omega) (by omega), getD_blk _ _ _ (by omega)]
    congr 1; omega

theorem length_ks4 (key nonce : List Byte) (c : Nat) (hk : key.length = 32) : (ks4 key nonce c).length = 64 := by
  rw [ks4, length_flatMap_range 16 _ (fun _ => length_aes256 _ _ hk)]

/-! ### The counter mode -/

/-- `n` bytes of the key stream from block `c`. -/
def ctrFrom (key nonce : List Byte) (c n : Nat) : List Byte :=
  ((List.range ((n + 15) / 16)).flatMap fun i => aes256 key (nonce ++ be32 (c + i))).take n

theorem ctrFrom_zero (key nonce : List Byte) (n : Nat) : ctrFrom key nonce 0 n = ctr key nonce n := by simp only [ctrFrom, ctr, Nat.zero_add]

theorem length_ctrFrom (key nonce : List Byte) (c n : Nat) (hk : key.length = 32) : (ctrFrom key nonce c n).length = n := by
  rw [ctrFrom, List.length_take, length_flatMap_range 16 _ (fun _ => length_aes256 _ _ hk)]; omega

theorem getD_ctrFrom (key nonce : List Byte) (c n m : Nat) (hk : key.length = 32) (hm : m < n) :
    (ctrFrom key nonce c n).getD m 0 = (aes256 key (nonce ++ be32 (c + m / 16))).getD (m % 16) 0 := by
  rw [ctrFrom, getD_take _ _ _ _ hm, getD_flatMap_range 16 (by decide) _ (fun _ => length_aes256 _ _ hk) _ _ _ (by omega)]

theorem getD_ks4 (key nonce : List Byte) (c m : Nat) (hk : key.length = 32) (hm : m < 64) :
    (ks4 key nonce c).getD m 0 = (aes256 key (nonce ++ be32 (c + m / 16))).getD (m % 16) 0 := by
  rw [ks4, getD_flatMap_range 16 (by decide) _ (fun _ => length_aes256 _ _ hk) _ _ _ (by omega)]

theorem ctrFrom_split (key nonce : List Byte) (c n : Nat) (hk : key.length = 32) :
    ctrFrom key nonce c (n + 64) = ks4 key nonce c ++ ctrFrom key nonce (c + 4) n := by
  apply ext_getD 0
  · rw [List.length_append, length_ctrFrom _ _ _ _ hk, length_ctrFrom _ _ _ _ hk, length_ks4 _ _ _ hk, Nat.add_comm]
  · intro m hm
    rw [length_ctrFrom _ _ _ _ hk] at hm
    rw [getD_ctrFrom _ _ _ _ _ hk hm]
    by_cases h : m < 64
    · rw [List.getD_append _ _ _ _ (by rw [length_ks4 _ _ _ hk]; omega), getD_ks4 _ _ _ _ hk h]
    · rw [List.getD_append_right _ _ _ _ (by rw [length_ks4 _ _ _ hk]; omega), length_ks4 _ _ _ hk, getD_ctrFrom _ _ _ _ _ hk (by omega),
        show c + 4 + (m - 64) / 16 = c + m / 16 by omega, show (m - 64) % 16 = m % 16 by omega]

theorem ctrFrom_short (key nonce : List Byte) (c n : Nat) (hk : key.length = 32) (hn : n ≤ 64) : ctrFrom key nonce c n = (ks4 key nonce c).take n := by
  apply ext_getD 0
  · rw [List.length_take, length_ctrFrom _ _ _ _ hk, length_ks4 _ _ _ hk]; omega
  · intro m hm
    rw [length_ctrFrom _ _ _ _ hk] at hm
    rw [getD_ctrFrom _ _ _ _ _ hk hm, getD_take _ _ _ _ hm, getD_ks4 _ _ _ _ hk (by omega)]

theorem ctrLoop_ok (key nonce : List Byte) (hk : key.length = 32) (hn : nonce.length = 12) (sk : List (BitVec 64)) (hs : SkOk key sk) :
    ∀ (len c : Nat) (ivw : List (BitVec 32)) (data : List Byte) (off : Nat), IV nonce c ivw → off + len ≤ data.length →
      ctrLoop sk ivw data off len = .ok (writeAt data off (ctrFrom key nonce c len)) := by
  intro len
  induction len using Nat.strongRecOn with
  | _ len ih =>
    intro c ivw data off hiv hd
    rw [ctrLoop]
    by_cases h : 64 < len
    · rw [if_pos h]
      obtain ⟨⟨d', iv'⟩, e, h1, h2⟩ := aes_ctr4x_ok key nonce c hk hn data off ivw sk hs hiv (by omega)
      dsimp only at h1 h2
      subst h1
      have hl : (writeAt data off (ks4 key nonce c)).length = data.length := length_writeAt _ _ _ (by rw [length_ks4 _ _ _ hk]; omega)
      rw [e, ok_bind]
      dsimp only
      rw [ih (len - 64) (by omega) (c + 4) iv' _ _ h2 (by omega)]
      have := writeAt_append data off (ks4 key nonce c) (ctrFrom key nonce (c + 4) (len - 64)) (by rw [length_ks4 _ _ _ hk, length_ctrFrom _ _ _ _ hk]; omega)
      rw [length_ks4 _ _ _ hk] at this
      rw [this, ← ctrFrom_split _ _ _ _ hk, show len - 64 + 64 = len by omega]
    · rw [if_neg h]
      by_cases h0 : 0 < len
      · rw [if_pos h0]
        obtain ⟨⟨d', iv'⟩, e, h1, h2⟩ := aes_ctr4x_ok key nonce c hk hn (uninit 8 83 64) 0 ivw sk hs hiv (by rw [length_uninit])
        dsimp only at h1 h2
        subst h1
        rw [e, ok_bind]
        dsimp only
        rw [writeAt_full _ _ (by rw [length_uninit, length_ks4 _ _ _ hk])]
        have hm := memcpy_ok data off (ks4 key nonce c) 0 len (by rw [length_ks4 _ _ _ hk]; omega) hd
        unfold memcpy at hm
        simp only [Nat.zero_add] at hm
        rw [hm, List.drop_zero, ctrFrom_short _ _ _ _ hk (by omega)]
      · rw [if_neg h0, show len = 0 by omega]
        simp [ctrFrom, writeAt]

theorem ivInit_ok (ivw : List (BitVec 32)) (iv : List Byte) (off : Nat) (hl : ivw.length = 16) (hi : off + 12 ≤ iv.length) :
    Ok (ivInit ivw iv off 0) (IV ((iv.drop off).take 12) 0) := by
  unfold ivInit
  have h3 : ((List.range 3).map fun i => decW iv (off + 4 * i)).length = 3 := by simp
  rw [range_dec_ok _ _ _ _ (by omega) (by omega), ok_bind]
  obtain ⟨u, hu⟩ : ∃ u, u = (List.range 3).map fun i => decW iv (off + 4 * i) := ⟨_, rfl⟩
  rw [← hu] at h3 ⊢
  have hw : ∀ k, k < 3 → wb (u.getD k 0) = (((iv.drop off).take 12).drop (4 * k)).take 4 := by
    intro k hk
    rw [hu, getD_map_range _ _ _ _ hk, wb_decW _ _ (by omega), List.drop_take, List.take_take, List.drop_drop, Nat.min_eq_left (by omega)]
  generalize (iv.drop off).take 12 = nonce at *
  clear hu
  obtain ⟨a, b, c, rfl⟩ : ∃ a b c, u = [a, b, c] := by
    rcases u with _ | ⟨a, _ | ⟨b, _ | ⟨c, _ | ⟨d, t⟩⟩⟩⟩ <;> simp at h3
    exact ⟨_, _, _, rfl⟩
  obtain ⟨v3, v4, v5, v6, v7, v8, v9, v10, v11, v12, v13, v14, v15, hv⟩ : ∃ v3 v4 v5 v6 v7 v8 v9 v10 v11 v12 v13 v14 v15,
      ivw.drop 3 = [v3, v4, v5, v6, v7, v8, v9, v10, v11, v12, v13, v14, v15] := by
    have hl' : (ivw.drop 3).length = 13 := by rw [List.length_drop, hl]
    generalize ivw.drop 3 = v at hl'
    rcases v with _ | ⟨n0, _ | ⟨n1, _ | ⟨n2, _ | ⟨n3, _ | ⟨n4, _ | ⟨n5, _ | ⟨n6, _ | ⟨n7, _ | ⟨n8, _ | ⟨n9, _ | ⟨n10, _ | ⟨n11, _ | ⟨n12, _ | ⟨n13, t⟩⟩⟩⟩⟩⟩⟩⟩⟩⟩⟩⟩⟩⟩ <;> simp at hl'
    exact ⟨_, _, _, _, _, _, _, _, _, _, _, _, _, rfl⟩
  rw [writeAt_prefix, show [a, b, c].length = 3 from rfl, hv]
  have h0 := hw 0 (by decide)
  have h1 := hw 1 (by decide)
  have h2 := hw 2 (by decide)
  refine ⟨[a, b, c, br_swap32 0, a, b, c, br_swap32 (0 + 1), a, b, c, br_swap32 (0 + 2), a, b, c, br_swap32 (0 + 3)], rfl, rfl, ?_, ?_⟩
  · intro b' hb k hk
    interval_cases b' <;> interval_cases k <;> assumption
  · intro b' hb
    interval_cases b' <;> rfl

/-- `aes256ctr_prf` -/
theorem prf_ok (out : List Byte) (outOff outlen : Nat) (key : List Byte) (keyOff : Nat) (nonce : List Byte) (nonceOff : Nat)
    (ho : outOff + outlen ≤ out.length) (hk : keyOff + 32 ≤ key.length) (hn : nonceOff + 12 ≤ nonce.length) :
    aes256ctr_prf out outOff outlen key keyOff nonce nonceOff
      = .ok (writeAt out outOff (ctr ((key.drop keyOff).take 32) ((nonce.drop nonceOff).take 12) outlen)) := by
  unfold aes256ctr_prf
  obtain ⟨sk, e, hs⟩ := ctr_init_ok (uninit 64 85 120) key keyOff (length_uninit _ _ _) hk
  rw [e, ok_bind]
  unfold ctr_run
  obtain ⟨iv, e, hi⟩ := ivInit_ok (uninit 32 84 16) nonce nonceOff (length_uninit _ _ _) hn
  rw [e, ok_bind, ctrLoop_ok _ _ (by simp; omega) (by simp; omega) sk hs outlen 0 iv out outOff hi ho, ctrFrom_zero]

/-! ### The incremental interface -/

/-- `s` is ready to produce the key stream from block `c`. -/
structure CtxOk (key nonce : List Byte) (c : Nat) (s : Ctx) : Prop where
  sk : SkOk key s.sk_exp
  iv : IV nonce c s.ivw

theorem init_ok (s : Ctx) (key : List Byte) (keyOff : Nat) (nonce : List Byte) (nonceOff : Nat) (h1 : s.sk_exp.length = 120) (h2 : s.ivw.length = 16)
    (hk : keyOff + 32 ≤ key.length) (hn : nonceOff + 12 ≤ nonce.length) :
    Ok (aes256ctr_init s key keyOff nonce nonceOff) (CtxOk ((key.drop keyOff).take 32) ((nonce.drop nonceOff).take 12) 0) := by
  unfold aes256ctr_init
  refine (ctr_init_ok s.sk_exp key keyOff h1 hk).bind fun sk hs => ?_
  refine (ivInit_ok s.ivw nonce nonceOff h2 hn).bind fun iv hi => ?_
  exact Ok.pure ⟨hs, hi⟩

theorem squeezeblocks_ok (key nonce : List Byte) (hk : key.length = 32) (hn : nonce.length = 12) (out : List Byte) (outOff nblocks c : Nat) (s : Ctx)
    (hs : CtxOk key nonce c s) (ho : outOff + 64 * nblocks ≤ out.length) :
    Ok (aes256ctr_squeezeblocks out outOff nblocks s) fun r =>
      r.1 = writeAt out outOff (ctrFrom key nonce c (64 * nblocks)) ∧ CtxOk key nonce (c + 4 * nblocks) r.2 := by
  unfold aes256ctr_squeezeblocks
  refine loop_inv (fun n (r : List Byte × Ctx) => r.1 = writeAt out outOff (ctrFrom key nonce c (64 * n)) ∧ CtxOk key nonce (c + 4 * n) r.2) ?_ ?_
  · exact ⟨by simp [ctrFrom, writeAt], hs⟩
  · rintro i ⟨o, s'⟩ hi ⟨h1, h2⟩
    dsimp only at h1 h2
    subst h1
    have hl : (writeAt out outOff (ctrFrom key nonce c (64 * i))).length = out.length := length_writeAt _ _ _ (by rw [length_ctrFrom _ _ _ _ hk]; omega)
    obtain ⟨⟨d', iv'⟩, e, h3, h4⟩ := aes_ctr4x_ok key nonce (c + 4 * i) hk hn (writeAt out outOff (ctrFrom key nonce c (64 * i))) (outOff + 64 * i) s'.ivw s'.sk_exp h2.sk h2.iv (by omega)
    dsimp only at h3 h4
    subst h3
    dsimp only
    rw [e, ok_bind]
    refine Ok.pure ⟨?_, h2.sk, h4⟩
    have := writeAt_append out outOff (ctrFrom key nonce c (64 * i)) (ks4 key nonce (c + 4 * i)) (by rw [length_ks4 _ _ _ hk, length_ctrFrom _ _ _ _ hk]; omega)
    rw [length_ctrFrom _ _ _ _ hk] at this
    dsimp only
    rw [this]
    congr 1
    apply ext_getD 0
    · rw [List.length_append, length_ctrFrom _ _ _ _ hk, length_ks4 _ _ _ hk, length_ctrFrom _ _ _ _ hk]; omega
    · intro m hm
      rw [List.length_append, length_ctrFrom _ _ _ _ hk, length_ks4 _ _ _ hk] at hm
      rw [getD_ctrFrom _ _ _ _ _ hk (by omega)]
      by_cases h : m < 64 * i
      · rw [List.getD_append _ _ _ _ (by rw [length_ctrFrom _ _ _ _ hk]; omega), getD_ctrFrom _ _ _ _ _ hk h]
      · rw [List.getD_append_right _ _ _ _ (by rw [length_ctrFrom _ _ _ _ hk]; omega), length_ctrFrom _ _ _ _ hk, getD_ks4 _ _ _ _ hk (by omega),
          show c + 4 * i + (m - 64 * i) / 16 = c + m / 16 by omega, show (m - 64 * i) % 16 = m % 16 by omega]

end Saber.U.Aes
