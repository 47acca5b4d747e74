import Verif.Model.M4.Pack
import Verif.Proof.Indcpa
import Verif.Spec.M4
/-!
# Cortex-M4: the packing functions implement the bit-stream specification

(The lemmas for the individual functions all have the same form.)
-/
namespace Saber.M4
open Spec

theorem getLsbD_testBit (w x j : Nat) (h : j < w) : (BitVec.ofNat w x).getLsbD j = x.testBit j := by
  rw [BitVec.getLsbD_ofNat]; simp [h]

/-- Recognising an unpacking loop that leaves arbitrary bits above the `k` bits of a coefficient. -/
theorem unpackMod_of_blocks (k cs cb n : Nat) (hk : k ≤ 16) (hcs : 0 < cs) (hkc : cs * k = 8 * cb) (hn : cs * n = 256)
    (bytes : List Byte) (off : Nat) (vs : Nat → List (BitVec 16)) (hw : ∀ j, (vs j).length = cs)
    (hbits : ∀ q, q < n → ∀ r, r < cs → ∀ j, j < k →
      ((vs q).getD r 0).getLsbD j = (bytes.getD (off + cb * q + (k * r + j) / 8) 0).getLsbD ((k * r + j) % 8)) :
    EqMod (2 ^ k) (toP ((List.range n).flatMap vs)) (unpack k (bytes.drop off)) := by
  -- clear the upper bits and compare with `unpack_of_blocks`
  let ws : Nat → List (BitVec 16) := fun q => (vs q).map fun x => BitVec.ofNat 16 (x.toNat % 2 ^ k)
  have hww : ∀ j, (ws j).length = cs := fun j => by simp [ws, hw]
  have hwd : ∀ q r, r < cs → (ws q).getD r 0 = BitVec.ofNat 16 (((vs q).getD r 0).toNat % 2 ^ k) := by
    intro q r hr
    have : r < (vs q).length := by rw [hw]; exact hr
    simp [ws, this]
  have h := unpack_of_blocks k cs cb n hcs hkc hn bytes off ws hww (by
    intro q hq r hr j hj
    rw [hwd q r hr, getLsbD_testBit _ _ _ hj, Nat.testBit_mod_two_pow, BitVec.testBit_toNat]
    by_cases hjk : j < k
    · rw [hbits q hq r hr j hjk]
    · simp [hjk])
  intro i
  have hi := i.isLt
  have e1 : toP ((List.range n).flatMap ws) i = toP (ofP (unpack k (bytes.drop off))) i := by rw [h]
  rw [toP_ofP] at e1
  have hr := unpack_range k (bytes.drop off) i
  have h16 : (2 : Int) ^ k ≤ 2 ^ 16 := by gcongr <;> omega
  rw [Int.emod_eq_of_lt hr.1 (by norm_num at h16; omega)] at e1
  rw [← e1]
  unfold toP
  rw [getD_flatMap_range cs hcs vs hw 0 n _ (by omega), getD_flatMap_range cs hcs ws hww 0 n _ (by omega), hwd _ _ (Nat.mod_lt _ hcs),
    BitVec.toNat_ofNat]
  have hp : (0 : Nat) < 2 ^ k := Nat.two_pow_pos k
  have hlt : ((vs (i.val / cs)).getD (i.val % cs) 0).toNat % 2 ^ k < 2 ^ 16 := by
    have := Nat.mod_lt ((vs (i.val / cs)).getD (i.val % cs) 0).toNat hp
    have h3 : 2 ^ k ≤ 2 ^ 16 := Nat.pow_le_pow_right (by omega) hk
    omega
  rw [Nat.mod_eq_of_lt hlt]
  push_cast
  rw [Int.emod_emod]

/-! ### Comparison in place -/

theorem or_eq_zero32 (a b : BitVec 32) : a ||| b = 0 ↔ a = 0 ∧ b = 0 := BitVec.or_eq_zero_iff

theorem or_lt (a b : BitVec 32) (ha : a.toNat < 256) (hb : b.toNat < 256) : (a ||| b).toNat < 256 := by
  rw [BitVec.toNat_or]
  exact Nat.or_lt_two_pow (n := 8) ha hb

theorem setWidth_zero : ∀ y : Byte, y.setWidth 32 = (0 : BitVec 32) → y = 0#8 := by decide +kernel

theorem xor_wide (x v : Byte) : (x ^^^ v).setWidth 32 = (0 : BitVec 32) ↔ x = v := by
  constructor
  · intro h
    exact BitVec.xor_eq_zero_iff.1 (setWidth_zero _ h)
  · rintro rfl; simp

theorem setWidth_lt (x : Byte) : (x.setWidth 32).toNat < 256 := by
  simp; have := x.isLt; omega

/-- `fail |= out[t] ^ v[t]` for all `t`: the result is zero iff `fail` was zero and the bytes agree. -/
theorem cmps_ok (vs : List Byte) : ∀ (fail : BitVec 32) (bytes : List Byte) (off : Nat), fail.toNat < 256 →
    off + vs.length ≤ bytes.length →
    Ok (cmps fail bytes off vs) fun f => f.toNat < 256 ∧ (f = 0 ↔ fail = 0 ∧ (bytes.drop off).take vs.length = vs) := by
  induction vs with
  | nil => intro fail bytes off hf _; exact Ok.pure ⟨hf, by simp⟩
  | cons v vs ih =>
    intro fail bytes off hf hl
    simp only [List.length_cons] at hl
    rw [cmps, rd_ok 0 (by omega), ok_bind]
    refine (ih _ bytes (off + 1) (or_lt _ _ hf (setWidth_lt _)) (by omega)).mono ?_
    rintro f ⟨h1, h2⟩
    refine ⟨h1, ?_⟩
    rw [h2, or_eq_zero32, xor_wide, List.length_cons, List.drop_eq_getElem_cons (show off < bytes.length by omega), List.take_succ_cons,
      List.cons.injEq]
    have : bytes.getD off 0 = bytes[off] := by simp [show off < bytes.length by omega]
    rw [this]
    tauto

/-- A loop that compares consecutive blocks. -/
theorem cmpLoop_ok (w : Nat) (vs : Nat → List Byte) (hw : ∀ j, (vs j).length = w) (n : Nat) (bytes : List Byte) (off : Nat)
    (hb : off + w * n ≤ bytes.length) (body : Nat → BitVec 32 → CM (BitVec 32))
    (hbody : ∀ j f, j < n → body j f = cmps f bytes (off + w * j) (vs j)) :
    Ok (loop n (0 : BitVec 32) body) fun f => f.toNat < 256 ∧ (f = 0 ↔ (bytes.drop off).take (w * n) = (List.range n).flatMap vs) := by
  have hle : ∀ j, j < n → off + w * j + w ≤ bytes.length := by
    intro j hj
    have := Nat.mul_le_mul_left w (show j + 1 ≤ n from hj)
    rw [Nat.mul_succ] at this; omega
  refine loop_inv (fun j (f : BitVec 32) => f.toNat < 256 ∧ (f = 0 ↔ (bytes.drop off).take (w * j) = (List.range j).flatMap vs)) ⟨by decide, by simp⟩ ?_
  rintro j f hj ⟨h1, h2⟩
  have := hle j hj
  rw [hbody j f hj]
  refine (cmps_ok (vs j) f bytes (off + w * j) h1 (by rw [hw]; omega)).mono ?_
  rintro f' ⟨h3, h4⟩
  refine ⟨h3, ?_⟩
  rw [h4, h2, hw, List.range_succ, List.flatMap_append, Nat.mul_succ, List.take_add, List.drop_drop]
  simp only [List.flatMap_cons, List.flatMap_nil, List.append_nil]
  constructor
  · rintro ⟨e1, e2⟩; rw [e1, e2]
  · intro h
    have hlen : ((bytes.drop off).take (w * j)).length = ((List.range j).flatMap vs).length := by
      rw [length_flatMap_range w vs hw]; simp; omega
    exact List.append_inj h hlen


theorem POLp2BSBlk_bits (d0 d1 d2 d3 r j : Nat) (hr : r < 5) (hj : j < 8) :
    ((M4.POLp2BSBlk d0 d1 d2 d3).getD r 0).getLsbD j = ([d0, d1, d2, d3].getD ((8 * r + j) / 10) 0).testBit ((8 * r + j) % 10) := by
  simp only [M4.POLp2BSBlk]
  interval_cases r <;> interval_cases j <;> bits_tac

/-- The block written at index `j`. -/
def POLp2BSVs (data : List (BitVec 16)) (j : Nat) : List Byte := M4.POLp2BSBlk (data.getD (4 * j + 0) 0).toNat (data.getD (4 * j + 1) 0).toNat (data.getD (4 * j + 2) 0).toNat (data.getD (4 * j + 3) 0).toNat

theorem POLp2BSVs_pack (data : List (BitVec 16)) : (List.range 64).flatMap (POLp2BSVs data) = pack 10 (toP data) := by
  refine pack_of_blocks 10 4 5 64 (by omega) (by omega) rfl rfl data _ (fun _ => rfl) ?_
  intro q hq r hr j hj
  rw [POLp2BSVs, POLp2BSBlk_bits _ _ _ _ r j hr hj]
  have ht : (8 * r + j) / 10 < 4 := by omega
  generalize (8 * r + j) / 10 = t at ht ⊢
  generalize (8 * r + j) % 10 = u
  interval_cases t <;>
    simp only [List.getD_cons_zero, List.getD_cons_succ, BitVec.testBit_toNat]


theorem POLq2BSBlk_bits (d0 d1 d2 d3 d4 d5 d6 d7 r j : Nat) (hr : r < 13) (hj : j < 8) :
    ((M4.POLq2BSBlk d0 d1 d2 d3 d4 d5 d6 d7).getD r 0).getLsbD j = ([d0, d1, d2, d3, d4, d5, d6, d7].getD ((8 * r + j) / 13) 0).testBit ((8 * r + j) % 13) := by
  simp only [M4.POLq2BSBlk]
  interval_cases r <;> interval_cases j <;> bits_tac

/-- The block written at index `j`. -/
def POLq2BSVs (data : List (BitVec 16)) (j : Nat) : List Byte := M4.POLq2BSBlk (data.getD (8 * j + 0) 0).toNat (data.getD (8 * j + 1) 0).toNat (data.getD (8 * j + 2) 0).toNat (data.getD (8 * j + 3) 0).toNat (data.getD (8 * j + 4) 0).toNat (data.getD (8 * j + 5) 0).toNat (data.getD (8 * j + 6) 0).toNat (data.getD (8 * j + 7) 0).toNat

theorem POLq2BSVs_pack (data : List (BitVec 16)) : (List.range 32).flatMap (POLq2BSVs data) = pack 13 (toP data) := by
  refine pack_of_blocks 13 8 13 32 (by omega) (by omega) rfl rfl data _ (fun _ => rfl) ?_
  intro q hq r hr j hj
  rw [POLq2BSVs, POLq2BSBlk_bits _ _ _ _ _ _ _ _ r j hr hj]
  have ht : (8 * r + j) / 13 < 8 := by omega
  generalize (8 * r + j) / 13 = t at ht ⊢
  generalize (8 * r + j) % 13 = u
  interval_cases t <;>
    simp only [List.getD_cons_zero, List.getD_cons_succ, BitVec.testBit_toNat]


theorem POLT2BS_3Blk_bits (d0 d1 d2 d3 d4 d5 d6 d7 r j : Nat) (hr : r < 3) (hj : j < 8) :
    ((M4.POLT2BS_3Blk d0 d1 d2 d3 d4 d5 d6 d7).getD r 0).getLsbD j = ([d0, d1, d2, d3, d4, d5, d6, d7].getD ((8 * r + j) / 3) 0).testBit ((8 * r + j) % 3) := by
  simp only [M4.POLT2BS_3Blk]
  interval_cases r <;> interval_cases j <;> bits_tac

/-- The block written at index `j`. -/
def POLT2BS_3Vs (data : List (BitVec 16)) (j : Nat) : List Byte := M4.POLT2BS_3Blk (data.getD (8 * j + 0) 0).toNat (data.getD (8 * j + 1) 0).toNat (data.getD (8 * j + 2) 0).toNat (data.getD (8 * j + 3) 0).toNat (data.getD (8 * j + 4) 0).toNat (data.getD (8 * j + 5) 0).toNat (data.getD (8 * j + 6) 0).toNat (data.getD (8 * j + 7) 0).toNat

theorem POLT2BS_3Vs_pack (data : List (BitVec 16)) : (List.range 32).flatMap (POLT2BS_3Vs data) = pack 3 (toP data) := by
  refine pack_of_blocks 3 8 3 32 (by omega) (by omega) rfl rfl data _ (fun _ => rfl) ?_
  intro q hq r hr j hj
  rw [POLT2BS_3Vs, POLT2BS_3Blk_bits _ _ _ _ _ _ _ _ r j hr hj]
  have ht : (8 * r + j) / 3 < 8 := by omega
  generalize (8 * r + j) / 3 = t at ht ⊢
  generalize (8 * r + j) % 3 = u
  interval_cases t <;>
    simp only [List.getD_cons_zero, List.getD_cons_succ, BitVec.testBit_toNat]


theorem POLT2BS_4Blk_bits (d0 d1 r j : Nat) (hr : r < 1) (hj : j < 8) :
    ((M4.POLT2BS_4Blk d0 d1).getD r 0).getLsbD j = ([d0, d1].getD ((8 * r + j) / 4) 0).testBit ((8 * r + j) % 4) := by
  simp only [M4.POLT2BS_4Blk]
  interval_cases r <;> interval_cases j <;> bits_tac

/-- The block written at index `j`. -/
def POLT2BS_4Vs (data : List (BitVec 16)) (j : Nat) : List Byte := M4.POLT2BS_4Blk (data.getD (2 * j + 0) 0).toNat (data.getD (2 * j + 1) 0).toNat

theorem POLT2BS_4Vs_pack (data : List (BitVec 16)) : (List.range 128).flatMap (POLT2BS_4Vs data) = pack 4 (toP data) := by
  refine pack_of_blocks 4 2 1 128 (by omega) (by omega) rfl rfl data _ (fun _ => rfl) ?_
  intro q hq r hr j hj
  rw [POLT2BS_4Vs, POLT2BS_4Blk_bits _ _ r j hr hj]
  have ht : (8 * r + j) / 4 < 2 := by omega
  generalize (8 * r + j) / 4 = t at ht ⊢
  generalize (8 * r + j) % 4 = u
  interval_cases t <;>
    simp only [List.getD_cons_zero, List.getD_cons_succ, BitVec.testBit_toNat]


theorem POLT2BS_6Blk_bits (d0 d1 d2 d3 r j : Nat) (hr : r < 3) (hj : j < 8) :
    ((M4.POLT2BS_6Blk d0 d1 d2 d3).getD r 0).getLsbD j = ([d0, d1, d2, d3].getD ((8 * r + j) / 6) 0).testBit ((8 * r + j) % 6) := by
  simp only [M4.POLT2BS_6Blk]
  interval_cases r <;> interval_cases j <;> bits_tac

/-- The block written at index `j`. -/
def POLT2BS_6Vs (data : List (BitVec 16)) (j : Nat) : List Byte := M4.POLT2BS_6Blk (data.getD (4 * j + 0) 0).toNat (data.getD (4 * j + 1) 0).toNat (data.getD (4 * j + 2) 0).toNat (data.getD (4 * j + 3) 0).toNat

theorem POLT2BS_6Vs_pack (data : List (BitVec 16)) : (List.range 64).flatMap (POLT2BS_6Vs data) = pack 6 (toP data) := by
  refine pack_of_blocks 6 4 3 64 (by omega) (by omega) rfl rfl data _ (fun _ => rfl) ?_
  intro q hq r hr j hj
  rw [POLT2BS_6Vs, POLT2BS_6Blk_bits _ _ _ _ r j hr hj]
  have ht : (8 * r + j) / 6 < 4 := by omega
  generalize (8 * r + j) / 6 = t at ht ⊢
  generalize (8 * r + j) % 6 = u
  interval_cases t <;>
    simp only [List.getD_cons_zero, List.getD_cons_succ, BitVec.testBit_toNat]


theorem POLp2BS_ok (bytes : List Byte) (off : Nat) (data : List (BitVec 16)) (hd : data.length = 256)
    (hb : off + 320 ≤ bytes.length) :
    M4.POLp2BS bytes off data = .ok (writeAt bytes off (pack 10 (toP data))) := by
  unfold M4.POLp2BS
  rw [show N / 4 = 64 from rfl, loop_blocks 5 (POLp2BSVs data) (fun _ => rfl) 64 bytes off (by omega), POLp2BSVs_pack]
  intro j a' hj ha
  simp only [rdN_ok, hd, show 4 * j + 0 < 256 by omega, show 4 * j + 1 < 256 by omega, show 4 * j + 2 < 256 by omega, show 4 * j + 3 < 256 by omega, ok_bind, POLp2BSVs]


theorem POLp2BS_cmp_ok (bytes : List Byte) (off : Nat) (data : List (BitVec 16)) (hd : data.length = 256)
    (hb : off + 320 ≤ bytes.length) :
    Ok (M4.POLp2BS_cmp bytes off data) fun f => f.toNat < 256 ∧ (f = 0 ↔ (bytes.drop off).take 320 = pack 10 (toP data)) := by
  unfold M4.POLp2BS_cmp
  rw [show N / 4 = 64 from rfl]
  have h := cmpLoop_ok 5 (POLp2BSVs data) (fun _ => rfl) 64 bytes off (by omega)
    (fun j fail => do
      let d0 ← rdN data (4 * j + 0)
      let d1 ← rdN data (4 * j + 1)
      let d2 ← rdN data (4 * j + 2)
      let d3 ← rdN data (4 * j + 3)
      cmps fail bytes (off + 5 * j) (M4.POLp2BSBlk d0 d1 d2 d3)) (by
    intro j f hj
    simp only [rdN_ok, hd, show 4 * j + 0 < 256 by omega, show 4 * j + 1 < 256 by omega, show 4 * j + 2 < 256 by omega, show 4 * j + 3 < 256 by omega, ok_bind, POLp2BSVs])
  rw [POLp2BSVs_pack] at h
  exact h


theorem POLq2BS_ok (bytes : List Byte) (off : Nat) (data : List (BitVec 16)) (hd : data.length = 256)
    (hb : off + 416 ≤ bytes.length) :
    M4.POLq2BS bytes off data = .ok (writeAt bytes off (pack 13 (toP data))) := by
  unfold M4.POLq2BS
  rw [show N / 8 = 32 from rfl, loop_blocks 13 (POLq2BSVs data) (fun _ => rfl) 32 bytes off (by omega), POLq2BSVs_pack]
  intro j a' hj ha
  simp only [rdN_ok, hd, show 8 * j + 0 < 256 by omega, show 8 * j + 1 < 256 by omega, show 8 * j + 2 < 256 by omega, show 8 * j + 3 < 256 by omega, show 8 * j + 4 < 256 by omega, show 8 * j + 5 < 256 by omega, show 8 * j + 6 < 256 by omega, show 8 * j + 7 < 256 by omega, ok_bind, POLq2BSVs]


/-- The block of `POLT2BS` at index `j`. -/
def blkTVs : PSet → List (BitVec 16) → Nat → List Byte
  | .light => POLT2BS_3Vs
  | .saber => POLT2BS_4Vs
  | .fire => POLT2BS_6Vs

theorem length_blkTVs (P : PSet) (data : List (BitVec 16)) (j : Nat) : (blkTVs P data j).length = blkTBytes P := by
  cases P <;> rfl

theorem blkTVs_pack (P : PSet) (data : List (BitVec 16)) : (List.range (blkTCount P)).flatMap (blkTVs P data) = pack P.ET (toP data) := by
  cases P
  · exact POLT2BS_3Vs_pack data
  · exact POLT2BS_4Vs_pack data
  · exact POLT2BS_6Vs_pack data

theorem blkT_size (P : PSet) : blkTBytes P * blkTCount P = 32 * P.ET := by cases P <;> rfl

theorem blkT_ok (P : PSet) (data : List (BitVec 16)) (hd : data.length = 256) (j : Nat) (hj : j < blkTCount P) :
    blkT P data j = .ok (blkTVs P data j) := by
  cases P <;> simp only [blkTCount, N] at hj <;> simp only [blkT, blkTVs]

  · simp only [rdN_ok, hd, show 8 * j + 0 < 256 by omega, show 8 * j + 1 < 256 by omega, show 8 * j + 2 < 256 by omega, show 8 * j + 3 < 256 by omega, show 8 * j + 4 < 256 by omega, show 8 * j + 5 < 256 by omega, show 8 * j + 6 < 256 by omega, show 8 * j + 7 < 256 by omega, ok_bind, pure_eq_ok, POLT2BS_3Vs]
  · simp only [rdN_ok, hd, show 2 * j + 0 < 256 by omega, show 2 * j + 1 < 256 by omega, ok_bind, pure_eq_ok, POLT2BS_4Vs]
  · simp only [rdN_ok, hd, show 4 * j + 0 < 256 by omega, show 4 * j + 1 < 256 by omega, show 4 * j + 2 < 256 by omega, show 4 * j + 3 < 256 by omega, ok_bind, pure_eq_ok, POLT2BS_6Vs]

theorem POLT2BS_ok (P : PSet) (bytes : List Byte) (off : Nat) (data : List (BitVec 16)) (hd : data.length = 256)
    (hb : off + 32 * P.ET ≤ bytes.length) :
    M4.POLT2BS P bytes off data = .ok (writeAt bytes off (pack P.ET (toP data))) := by
  have hs := blkT_size P
  unfold M4.POLT2BS
  rw [loop_blocks (blkTBytes P) (blkTVs P data) (length_blkTVs P data) (blkTCount P) bytes off (by omega), blkTVs_pack]
  intro j a' hj ha
  rw [blkT_ok P data hd j hj, ok_bind]

theorem POLT2BS_cmp_ok (P : PSet) (bytes : List Byte) (off : Nat) (data : List (BitVec 16)) (hd : data.length = 256)
    (hb : off + 32 * P.ET ≤ bytes.length) :
    Ok (M4.POLT2BS_cmp P bytes off data) fun f => f.toNat < 256 ∧ (f = 0 ↔ (bytes.drop off).take (32 * P.ET) = pack P.ET (toP data)) := by
  have hs := blkT_size P
  unfold M4.POLT2BS_cmp
  have h := cmpLoop_ok (blkTBytes P) (blkTVs P data) (length_blkTVs P data) (blkTCount P) bytes off (by omega)
    (fun j fail => do
      let vs ← blkT P data j
      cmps fail bytes (off + blkTBytes P * j) vs) (by
    intro j f hj
    rw [blkT_ok P data hd j hj, ok_bind])
  rw [blkTVs_pack, hs] at h
  exact h


theorem BS2POLpBlk_bits (b0 b1 b2 b3 b4 r j : Nat) (hr : r < 4) (hj : j < 10) (h0 : b0 < 256) (h1 : b1 < 256) (h2 : b2 < 256) (h3 : b3 < 256) (h4 : b4 < 256) :
    ((M4.BS2POLpBlk b0 b1 b2 b3 b4).getD r 0).getLsbD j = ([b0, b1, b2, b3, b4].getD ((10 * r + j) / 8) 0).testBit ((10 * r + j) % 8) := by
  have big : ∀ b, b < 256 → ∀ m, 8 ≤ m → b.testBit m = false := fun b hb m hm =>
    Nat.testBit_lt_two_pow (Nat.lt_of_lt_of_le hb (Nat.pow_le_pow_right (n := 2) (i := 8) (by omega) hm))
  have z0 := big b0 h0
  have z1 := big b1 h1
  have z2 := big b2 h2
  have z3 := big b3 h3
  have z4 := big b4 h4
  simp only [M4.BS2POLpBlk]
  interval_cases r <;> interval_cases j <;> simp only [z0, z1, z2, z3, z4, reduceTestBit, List.getD_cons_zero, List.getD_cons_succ, n16, BitVec.getLsbD_ofNat,
    Nat.testBit_or, Nat.testBit_and, Nat.testBit_shiftLeft, Nat.testBit_shiftRight,
    Nat.reduceDiv, Nat.reduceMul, Nat.reduceAdd, Nat.reduceMod, Nat.reduceLT, Nat.reduceSub, Nat.reduceLeDiff,
    Nat.reduceGT, Nat.reduceEqDiff,
    decide_true, decide_false, Bool.true_and, Bool.false_and, Bool.and_true, Bool.and_false, Bool.or_false,
    Bool.false_or, ge_iff_le, Nat.add_zero, Nat.zero_add]

/-- The block read at index `j`. -/
def BS2POLpVs (bytes : List Byte) (off j : Nat) : List (BitVec 16) := M4.BS2POLpBlk (bytes.getD (off + 5 * j + 0) 0).toNat (bytes.getD (off + 5 * j + 1) 0).toNat (bytes.getD (off + 5 * j + 2) 0).toNat (bytes.getD (off + 5 * j + 3) 0).toNat (bytes.getD (off + 5 * j + 4) 0).toNat

theorem BS2POLpVs_unpack (bytes : List Byte) (off : Nat) :
    EqMod (2 ^ 10) (toP ((List.range 64).flatMap (BS2POLpVs bytes off))) (unpack 10 (bytes.drop off)) := by
  refine unpackMod_of_blocks 10 4 5 64 (by omega) (by omega) rfl rfl bytes off _ (fun _ => rfl) ?_
  intro q hq r hr j hj
  rw [BS2POLpVs, BS2POLpBlk_bits _ _ _ _ _ r j hr hj (BitVec.isLt _) (BitVec.isLt _) (BitVec.isLt _) (BitVec.isLt _) (BitVec.isLt _)]
  have ht : (10 * r + j) / 8 < 5 := by omega
  generalize (10 * r + j) / 8 = t at ht ⊢
  generalize (10 * r + j) % 8 = u
  interval_cases t <;>
    simp only [List.getD_cons_zero, List.getD_cons_succ, BitVec.testBit_toNat]


theorem BS2POLqBlk_bits (b0 b1 b2 b3 b4 b5 b6 b7 b8 b9 b10 b11 b12 r j : Nat) (hr : r < 8) (hj : j < 13) (h0 : b0 < 256) (h1 : b1 < 256) (h2 : b2 < 256) (h3 : b3 < 256) (h4 : b4 < 256) (h5 : b5 < 256) (h6 : b6 < 256) (h7 : b7 < 256) (h8 : b8 < 256) (h9 : b9 < 256) (h10 : b10 < 256) (h11 : b11 < 256) (h12 : b12 < 256) :
    ((M4.BS2POLqBlk b0 b1 b2 b3 b4 b5 b6 b7 b8 b9 b10 b11 b12).getD r 0).getLsbD j = ([b0, b1, b2, b3, b4, b5, b6, b7, b8, b9, b10, b11, b12].getD ((13 * r + j) / 8) 0).testBit ((13 * r + j) % 8) := by
  have big : ∀ b, b < 256 → ∀ m, 8 ≤ m → b.testBit m = false := fun b hb m hm =>
    Nat.testBit_lt_two_pow (Nat.lt_of_lt_of_le hb (Nat.pow_le_pow_right (n := 2) (i := 8) (by omega) hm))
  have z0 := big b0 h0
  have z1 := big b1 h1
  have z2 := big b2 h2
  have z3 := big b3 h3
  have z4 := big b4 h4
  have z5 := big b5 h5
  have z6 := big b6 h6
  have z7 := big b7 h7
  have z8 := big b8 h8
  have z9 := big b9 h9
  have z10 := big b10 h10
  have z11 := big b11 h11
  have z12 := big b12 h12
  simp only [M4.BS2POLqBlk]
  interval_cases r <;> interval_cases j <;> simp only [z0, z1, z2, z3, z4, z5, z6, z7, z8, z9, z10, z11, z12, reduceTestBit, List.getD_cons_zero, List.getD_cons_succ, n16, BitVec.getLsbD_ofNat,
    Nat.testBit_or, Nat.testBit_and, Nat.testBit_shiftLeft, Nat.testBit_shiftRight,
    Nat.reduceDiv, Nat.reduceMul, Nat.reduceAdd, Nat.reduceMod, Nat.reduceLT, Nat.reduceSub, Nat.reduceLeDiff,
    Nat.reduceGT, Nat.reduceEqDiff,
    decide_true, decide_false, Bool.true_and, Bool.false_and, Bool.and_true, Bool.and_false, Bool.or_false,
    Bool.false_or, ge_iff_le, Nat.add_zero, Nat.zero_add]

/-- The block read at index `j`. -/
def BS2POLqVs (bytes : List Byte) (off j : Nat) : List (BitVec 16) := M4.BS2POLqBlk (bytes.getD (off + 13 * j + 0) 0).toNat (bytes.getD (off + 13 * j + 1) 0).toNat (bytes.getD (off + 13 * j + 2) 0).toNat (bytes.getD (off + 13 * j + 3) 0).toNat (bytes.getD (off + 13 * j + 4) 0).toNat (bytes.getD (off + 13 * j + 5) 0).toNat (bytes.getD (off + 13 * j + 6) 0).toNat (bytes.getD (off + 13 * j + 7) 0).toNat (bytes.getD (off + 13 * j + 8) 0).toNat (bytes.getD (off + 13 * j + 9) 0).toNat (bytes.getD (off + 13 * j + 10) 0).toNat (bytes.getD (off + 13 * j + 11) 0).toNat (bytes.getD (off + 13 * j + 12) 0).toNat

theorem BS2POLqVs_unpack (bytes : List Byte) (off : Nat) :
    EqMod (2 ^ 13) (toP ((List.range 32).flatMap (BS2POLqVs bytes off))) (unpack 13 (bytes.drop off)) := by
  refine unpackMod_of_blocks 13 8 13 32 (by omega) (by omega) rfl rfl bytes off _ (fun _ => rfl) ?_
  intro q hq r hr j hj
  rw [BS2POLqVs, BS2POLqBlk_bits _ _ _ _ _ _ _ _ _ _ _ _ _ r j hr hj (BitVec.isLt _) (BitVec.isLt _) (BitVec.isLt _) (BitVec.isLt _) (BitVec.isLt _) (BitVec.isLt _) (BitVec.isLt _) (BitVec.isLt _) (BitVec.isLt _) (BitVec.isLt _) (BitVec.isLt _) (BitVec.isLt _) (BitVec.isLt _)]
  have ht : (13 * r + j) / 8 < 13 := by omega
  generalize (13 * r + j) / 8 = t at ht ⊢
  generalize (13 * r + j) % 8 = u
  interval_cases t <;>
    simp only [List.getD_cons_zero, List.getD_cons_succ, BitVec.testBit_toNat]


theorem BS2POLT_3Blk_bits (b0 b1 b2 r j : Nat) (hr : r < 8) (hj : j < 3) (h0 : b0 < 256) (h1 : b1 < 256) (h2 : b2 < 256) :
    ((M4.BS2POLT_3Blk b0 b1 b2).getD r 0).getLsbD j = ([b0, b1, b2].getD ((3 * r + j) / 8) 0).testBit ((3 * r + j) % 8) := by
  have big : ∀ b, b < 256 → ∀ m, 8 ≤ m → b.testBit m = false := fun b hb m hm =>
    Nat.testBit_lt_two_pow (Nat.lt_of_lt_of_le hb (Nat.pow_le_pow_right (n := 2) (i := 8) (by omega) hm))
  have z0 := big b0 h0
  have z1 := big b1 h1
  have z2 := big b2 h2
  simp only [M4.BS2POLT_3Blk]
  interval_cases r <;> interval_cases j <;> simp only [z0, z1, z2, reduceTestBit, List.getD_cons_zero, List.getD_cons_succ, n16, BitVec.getLsbD_ofNat,
    Nat.testBit_or, Nat.testBit_and, Nat.testBit_shiftLeft, Nat.testBit_shiftRight,
    Nat.reduceDiv, Nat.reduceMul, Nat.reduceAdd, Nat.reduceMod, Nat.reduceLT, Nat.reduceSub, Nat.reduceLeDiff,
    Nat.reduceGT, Nat.reduceEqDiff,
    decide_true, decide_false, Bool.true_and, Bool.false_and, Bool.and_true, Bool.and_false, Bool.or_false,
    Bool.false_or, ge_iff_le, Nat.add_zero, Nat.zero_add]

/-- The block read at index `j`. -/
def BS2POLT_3Vs (bytes : List Byte) (off j : Nat) : List (BitVec 16) := M4.BS2POLT_3Blk (bytes.getD (off + 3 * j + 0) 0).toNat (bytes.getD (off + 3 * j + 1) 0).toNat (bytes.getD (off + 3 * j + 2) 0).toNat

theorem BS2POLT_3Vs_unpack (bytes : List Byte) (off : Nat) :
    EqMod (2 ^ 3) (toP ((List.range 32).flatMap (BS2POLT_3Vs bytes off))) (unpack 3 (bytes.drop off)) := by
  refine unpackMod_of_blocks 3 8 3 32 (by omega) (by omega) rfl rfl bytes off _ (fun _ => rfl) ?_
  intro q hq r hr j hj
  rw [BS2POLT_3Vs, BS2POLT_3Blk_bits _ _ _ r j hr hj (BitVec.isLt _) (BitVec.isLt _) (BitVec.isLt _)]
  have ht : (3 * r + j) / 8 < 3 := by omega
  generalize (3 * r + j) / 8 = t at ht ⊢
  generalize (3 * r + j) % 8 = u
  interval_cases t <;>
    simp only [List.getD_cons_zero, List.getD_cons_succ, BitVec.testBit_toNat]


theorem BS2POLT_4Blk_bits (b0 r j : Nat) (hr : r < 2) (hj : j < 4) (h0 : b0 < 256) :
    ((M4.BS2POLT_4Blk b0).getD r 0).getLsbD j = ([b0].getD ((4 * r + j) / 8) 0).testBit ((4 * r + j) % 8) := by
  have big : ∀ b, b < 256 → ∀ m, 8 ≤ m → b.testBit m = false := fun b hb m hm =>
    Nat.testBit_lt_two_pow (Nat.lt_of_lt_of_le hb (Nat.pow_le_pow_right (n := 2) (i := 8) (by omega) hm))
  have z0 := big b0 h0
  simp only [M4.BS2POLT_4Blk]
  interval_cases r <;> interval_cases j <;> simp only [z0, reduceTestBit, List.getD_cons_zero, List.getD_cons_succ, n16, BitVec.getLsbD_ofNat,
    Nat.testBit_or, Nat.testBit_and, Nat.testBit_shiftLeft, Nat.testBit_shiftRight,
    Nat.reduceDiv, Nat.reduceMul, Nat.reduceAdd, Nat.reduceMod, Nat.reduceLT, Nat.reduceSub, Nat.reduceLeDiff,
    Nat.reduceGT, Nat.reduceEqDiff,
    decide_true, decide_false, Bool.true_and, Bool.false_and, Bool.and_true, Bool.and_false, Bool.or_false,
    Bool.false_or, ge_iff_le, Nat.add_zero, Nat.zero_add]

/-- The block read at index `j`. -/
def BS2POLT_4Vs (bytes : List Byte) (off j : Nat) : List (BitVec 16) := M4.BS2POLT_4Blk (bytes.getD (off + 1 * j + 0) 0).toNat

theorem BS2POLT_4Vs_unpack (bytes : List Byte) (off : Nat) :
    EqMod (2 ^ 4) (toP ((List.range 128).flatMap (BS2POLT_4Vs bytes off))) (unpack 4 (bytes.drop off)) := by
  refine unpackMod_of_blocks 4 2 1 128 (by omega) (by omega) rfl rfl bytes off _ (fun _ => rfl) ?_
  intro q hq r hr j hj
  rw [BS2POLT_4Vs, BS2POLT_4Blk_bits _ r j hr hj (BitVec.isLt _)]
  have ht : (4 * r + j) / 8 < 1 := by omega
  generalize (4 * r + j) / 8 = t at ht ⊢
  generalize (4 * r + j) % 8 = u
  interval_cases t <;>
    simp only [List.getD_cons_zero, List.getD_cons_succ, BitVec.testBit_toNat]


theorem BS2POLT_6Blk_bits (b0 b1 b2 r j : Nat) (hr : r < 4) (hj : j < 6) (h0 : b0 < 256) (h1 : b1 < 256) (h2 : b2 < 256) :
    ((M4.BS2POLT_6Blk b0 b1 b2).getD r 0).getLsbD j = ([b0, b1, b2].getD ((6 * r + j) / 8) 0).testBit ((6 * r + j) % 8) := by
  have big : ∀ b, b < 256 → ∀ m, 8 ≤ m → b.testBit m = false := fun b hb m hm =>
    Nat.testBit_lt_two_pow (Nat.lt_of_lt_of_le hb (Nat.pow_le_pow_right (n := 2) (i := 8) (by omega) hm))
  have z0 := big b0 h0
  have z1 := big b1 h1
  have z2 := big b2 h2
  simp only [M4.BS2POLT_6Blk]
  interval_cases r <;> interval_cases j <;> simp only [z0, z1, z2, reduceTestBit, List.getD_cons_zero, List.getD_cons_succ, n16, BitVec.getLsbD_ofNat,
    Nat.testBit_or, Nat.testBit_and, Nat.testBit_shiftLeft, Nat.testBit_shiftRight,
    Nat.reduceDiv, Nat.reduceMul, Nat.reduceAdd, Nat.reduceMod, Nat.reduceLT, Nat.reduceSub, Nat.reduceLeDiff,
    Nat.reduceGT, Nat.reduceEqDiff,
    decide_true, decide_false, Bool.true_and, Bool.false_and, Bool.and_true, Bool.and_false, Bool.or_false,
    Bool.false_or, ge_iff_le, Nat.add_zero, Nat.zero_add]

/-- The block read at index `j`. -/
def BS2POLT_6Vs (bytes : List Byte) (off j : Nat) : List (BitVec 16) := M4.BS2POLT_6Blk (bytes.getD (off + 3 * j + 0) 0).toNat (bytes.getD (off + 3 * j + 1) 0).toNat (bytes.getD (off + 3 * j + 2) 0).toNat

theorem BS2POLT_6Vs_unpack (bytes : List Byte) (off : Nat) :
    EqMod (2 ^ 6) (toP ((List.range 64).flatMap (BS2POLT_6Vs bytes off))) (unpack 6 (bytes.drop off)) := by
  refine unpackMod_of_blocks 6 4 3 64 (by omega) (by omega) rfl rfl bytes off _ (fun _ => rfl) ?_
  intro q hq r hr j hj
  rw [BS2POLT_6Vs, BS2POLT_6Blk_bits _ _ _ r j hr hj (BitVec.isLt _) (BitVec.isLt _) (BitVec.isLt _)]
  have ht : (6 * r + j) / 8 < 3 := by omega
  generalize (6 * r + j) / 8 = t at ht ⊢
  generalize (6 * r + j) % 8 = u
  interval_cases t <;>
    simp only [List.getD_cons_zero, List.getD_cons_succ, BitVec.testBit_toNat]


theorem BS2POLp_ok (bytes : List Byte) (off : Nat) (data : List (BitVec 16)) (hd : data.length = 256)
    (hb : off + 320 ≤ bytes.length) :
    Ok (M4.BS2POLp bytes off data) fun r => r.length = 256 ∧ EqMod (2 ^ 10) (toP r) (unpack 10 (bytes.drop off)) := by
  unfold M4.BS2POLp
  rw [show N / 4 = 64 from rfl, loop_blocks 4 (BS2POLpVs bytes off) (fun _ => rfl) 64 data 0 (by omega), writeAt_full]
  · refine Ok.pure ⟨?_, BS2POLpVs_unpack bytes off⟩
    rw [length_flatMap_range 4 _ (fun _ => rfl)]
  · rw [length_flatMap_range 4 _ (fun _ => rfl), hd]
  · intro j a' hj ha
    simp only [rdN_ok, show off + 5 * j + 0 < bytes.length by omega, show off + 5 * j + 1 < bytes.length by omega, show off + 5 * j + 2 < bytes.length by omega, show off + 5 * j + 3 < bytes.length by omega, show off + 5 * j + 4 < bytes.length by omega, ok_bind, BS2POLpVs, Nat.zero_add]


theorem BS2POLq_ok (bytes : List Byte) (off : Nat) (data : List (BitVec 16)) (hd : data.length = 256)
    (hb : off + 416 ≤ bytes.length) :
    Ok (M4.BS2POLq bytes off data) fun r => r.length = 256 ∧ EqMod (2 ^ 13) (toP r) (unpack 13 (bytes.drop off)) := by
  unfold M4.BS2POLq
  rw [show N / 8 = 32 from rfl, loop_blocks 8 (BS2POLqVs bytes off) (fun _ => rfl) 32 data 0 (by omega), writeAt_full]
  · refine Ok.pure ⟨?_, BS2POLqVs_unpack bytes off⟩
    rw [length_flatMap_range 8 _ (fun _ => rfl)]
  · rw [length_flatMap_range 8 _ (fun _ => rfl), hd]
  · intro j a' hj ha
    simp only [rdN_ok, show off + 13 * j + 0 < bytes.length by omega, show off + 13 * j + 1 < bytes.length by omega, show off + 13 * j + 2 < bytes.length by omega, show off + 13 * j + 3 < bytes.length by omega, show off + 13 * j + 4 < bytes.length by omega, show off + 13 * j + 5 < bytes.length by omega, show off + 13 * j + 6 < bytes.length by omega, show off + 13 * j + 7 < bytes.length by omega, show off + 13 * j + 8 < bytes.length by omega, show off + 13 * j + 9 < bytes.length by omega, show off + 13 * j + 10 < bytes.length by omega, show off + 13 * j + 11 < bytes.length by omega, show off + 13 * j + 12 < bytes.length by omega, ok_bind, BS2POLqVs, Nat.zero_add]


theorem BS2POLT_ok (P : PSet) (bytes : List Byte) (off : Nat) (data : List (BitVec 16)) (hd : data.length = 256)
    (hb : off + 32 * P.ET ≤ bytes.length) :
    Ok (M4.BS2POLT P bytes off data) fun r => r.length = 256 ∧ EqMod (2 ^ P.ET) (toP r) (unpack P.ET (bytes.drop off)) := by
  cases P <;> simp only [PSet.ET] at hb <;> simp only [M4.BS2POLT]
  · rw [show N / 8 = 32 from rfl, loop_blocks 8 (BS2POLT_3Vs bytes off) (fun _ => rfl) 32 data 0 (by omega), writeAt_full]
    · refine Ok.pure ⟨?_, BS2POLT_3Vs_unpack bytes off⟩
      rw [length_flatMap_range 8 _ (fun _ => rfl)]
    · rw [length_flatMap_range 8 _ (fun _ => rfl), hd]
    · intro j a' hj ha
      simp only [rdN_ok, show off + 3 * j + 0 < bytes.length by omega, show off + 3 * j + 1 < bytes.length by omega, show off + 3 * j + 2 < bytes.length by omega, ok_bind, BS2POLT_3Vs, Nat.zero_add]
  · rw [show N / 2 = 128 from rfl, loop_blocks 2 (BS2POLT_4Vs bytes off) (fun _ => rfl) 128 data 0 (by omega), writeAt_full]
    · refine Ok.pure ⟨?_, BS2POLT_4Vs_unpack bytes off⟩
      rw [length_flatMap_range 2 _ (fun _ => rfl)]
    · rw [length_flatMap_range 2 _ (fun _ => rfl), hd]
    · intro j a' hj ha
      simp only [rdN_ok, show off + 1 * j + 0 < bytes.length by omega, ok_bind, BS2POLT_4Vs, Nat.zero_add]
  · rw [show N / 4 = 64 from rfl, loop_blocks 4 (BS2POLT_6Vs bytes off) (fun _ => rfl) 64 data 0 (by omega), writeAt_full]
    · refine Ok.pure ⟨?_, BS2POLT_6Vs_unpack bytes off⟩
      rw [length_flatMap_range 4 _ (fun _ => rfl)]
    · rw [length_flatMap_range 4 _ (fun _ => rfl), hd]
    · intro j a' hj ha
      simp only [rdN_ok, show off + 3 * j + 0 < bytes.length by omega, show off + 3 * j + 1 < bytes.length by omega, show off + 3 * j + 2 < bytes.length by omega, ok_bind, BS2POLT_6Vs, Nat.zero_add]

/-! ### Messages -/

theorem BS2POLmsg_ok (bytes : List Byte) (off : Nat) (data : List (BitVec 16)) (hd : data.length = 256)
    (hb : off + 32 ≤ bytes.length) :
    Ok (M4.BS2POLmsg bytes off data) fun r => r.length = 256 ∧ EqMod (2 ^ 1) (toP r) (unpack 1 (bytes.drop off)) := by
  let vs : Nat → List (BitVec 16) := fun j => (List.range 8).map fun i => n16 ((bytes.getD (off + j) 0).toNat >>> i)
  have hw : ∀ j, (vs j).length = 8 := fun j => rfl
  have hu := unpackMod_of_blocks 1 8 1 32 (by omega) (by omega) rfl rfl bytes off vs hw (by
    intro q hq r hr j hj
    have hj0 : j = 0 := by omega
    subst hj0
    simp only [vs]
    rw [getD_map_range _ _ _ _ hr, n16, getLsbD_testBit _ _ _ (by omega), Nat.testBit_shiftRight, BitVec.testBit_toNat,
      show off + 1 * q + (1 * r + 0) / 8 = off + q by omega, show (1 * r + 0) % 8 = r + 0 by omega])
  unfold M4.BS2POLmsg
  rw [show KEYBYTES = 32 from rfl, loop_blocks 8 vs hw 32 data 0 (by omega), writeAt_full]
  · refine Ok.pure ⟨?_, hu⟩
    rw [length_flatMap_range 8 _ hw]
  · rw [length_flatMap_range 8 _ hw, hd]
  · intro j a' hj ha
    rw [rdN_ok (by omega), ok_bind,
      loop_blocks 1 (fun i => [n16 ((bytes.getD (off + j) 0).toNat >>> i)]) (fun _ => rfl) 8 a' (j * 8) (by omega),
      flatMap_singleton_eq_map, wrs_ok _ _ _ (by rw [hw]; omega)]
    · rw [Nat.zero_add, Nat.mul_comm]
    · intro i a'' hi ha''
      rw [wr_eq_wrs, Nat.one_mul]

theorem msgByte_ok (data : List (BitVec 16)) (hd : data.length = 256) (m : Nat) (hm : m < 32) :
    msgByte data m = .ok (BitVec.ofNat 8 (natOfBits 8 fun j => (data.getD (8 * m + j) 0).getLsbD 0)) := by
  have key : ∀ i, i ≤ 8 → loop i (0 : Byte) (fun i byte => do
      let d ← rdN data (m * 8 + i)
      pure (n8 (byte.toNat ||| ((d &&& 0x01) <<< i)))) =
      .ok (BitVec.ofNat 8 (natOfBits i fun j => (data.getD (8 * m + j) 0).getLsbD 0)) := by
    intro i
    induction i with
    | zero => intro _; rfl
    | succ i ih =>
      intro hi
      rw [loop_succ, ih (by omega), ok_bind, rdN_ok (by omega), ok_bind, pure_eq_ok]
      congr 1
      rw [n8, BitVec.toNat_ofNat]
      have hlt := natOfBits_lt i fun j => (data.getD (8 * m + j) 0).getLsbD 0
      have h256 : (2:Nat) ^ i ≤ 2 ^ 8 := Nat.pow_le_pow_right (by omega) (by omega)
      rw [Nat.mod_eq_of_lt (by omega), or_bit_natOfBits]
      rw [Nat.mul_comm, BitVec.testBit_toNat]
  exact key 8 (by omega)

theorem POLmsg2BS_ok (bytes : List Byte) (off : Nat) (data : List (BitVec 16)) (hd : data.length = 256)
    (hb : off + 32 ≤ bytes.length) :
    M4.POLmsg2BS bytes off data = .ok (writeAt bytes off (pack 1 (toP data))) := by
  unfold M4.POLmsg2BS
  rw [show KEYBYTES = 32 from rfl,
    loop_blocks 1 (fun m => [BitVec.ofNat 8 (natOfBits 8 fun j => (data.getD (8 * m + j) 0).getLsbD 0)]) (fun _ => rfl) 32 bytes off (by omega),
    flatMap_singleton_eq_map]
  · congr 2
    rw [pack]
    apply List.map_congr_left
    intro m hm
    simp at hm
    congr 1
    apply natOfBits_congr
    intro j hj
    rw [streamBit_toP _ _ _ (by omega)]
    simp [Nat.mod_one]
  · intro j a' hj ha
    rw [msgByte_ok data hd j hj, ok_bind, wr_eq_wrs, Nat.one_mul]

/-! ### Compressed secrets -/

/-- The block written by `POLmu2BS` is that of `POLT2BS` with `SABER_ET == 4`. -/
theorem POLmu2BS_c_ok (bytes : List Byte) (off : Nat) (data : List (BitVec 16)) (hd : data.length = 256)
    (hb : off + 128 ≤ bytes.length) :
    POLmu2BS_c bytes off data = .ok (writeAt bytes off (pack 4 (toP data))) := by
  unfold POLmu2BS_c
  rw [show N / 2 = 128 from rfl, loop_blocks 1 (POLT2BS_4Vs data) (fun _ => rfl) 128 bytes off (by omega), POLT2BS_4Vs_pack]
  intro j a' hj ha
  simp only [rdN_ok, hd, show 2 * j + 0 < 256 by omega, show 2 * j + 1 < 256 by omega, ok_bind, POLT2BS_4Vs, M4.POLT2BS_4Blk]

theorem BS2POLmu_c_ok (bytes : List Byte) (off : Nat) (data : List (BitVec 16)) (hd : data.length = 256)
    (hb : off + 128 ≤ bytes.length) :
    BS2POLmu_c bytes off data = .ok (ofP fun i => signed4 (unpack 4 (bytes.drop off) i)) := by
  let vs : Nat → List (BitVec 16) := fun j => [u16 (bits4 ((bytes.getD (off + 1 * j) 0).toNat &&& 0xf)),
    u16 (bits4 (((bytes.getD (off + 1 * j) 0).toNat >>> 4) &&& 0xf))]
  have hw : ∀ j, (vs j).length = 2 := fun _ => rfl
  unfold BS2POLmu_c
  rw [show N / 2 = 128 from rfl, loop_blocks 2 vs hw 128 data 0 (by omega), writeAt_full]
  · congr 1
    -- compare with the unsigned unpacking
    have hq := BS2POLT_4Vs_unpack bytes off
    apply ext_getD 0
    · rw [length_flatMap_range 2 _ hw, length_ofP]
    · intro i hi
      rw [length_flatMap_range 2 _ hw] at hi
      have hi' : i < 256 := by omega
      rw [getD_flatMap_range 2 (by omega) vs hw 0 128 i (by omega), ofP, getD_map_range _ _ _ _ hi']
      have hqi := hq (Fin.ofNat 256 i)
      have hv : (Fin.ofNat 256 i).val = i := by simp [Fin.ofNat]; omega
      have hr := unpack_range 4 (bytes.drop off) (Fin.ofNat 256 i)
      rw [Int.emod_eq_of_lt hr.1 (by norm_num at hr ⊢; omega)] at hqi
      rw [← hqi]
      unfold toP
      rw [hv, getD_flatMap_range 2 (by omega) (BS2POLT_4Vs bytes off) (fun _ => rfl) 0 128 i (by omega)]
      simp only [vs, BS2POLT_4Vs, M4.BS2POLT_4Blk, Nat.add_zero]
      generalize bytes.getD (off + 1 * (i / 2)) 0 = B
      rcases Nat.mod_two_eq_zero_or_one i with h | h <;> rw [h]
      all_goals
        simp only [List.getD_cons_zero, List.getD_cons_succ]
        revert B
        decide +kernel
  · rw [length_flatMap_range 2 _ hw, hd]
  · intro j a' hj ha
    rw [rdN_ok (by omega), ok_bind]
    simp only [vs, Nat.zero_add]

end Saber.M4
