import Verif.Proof.BitTac
import Verif.Model.Pack
/-!
# The packing functions implement the bit-stream specification
-/
namespace Saber
open Spec

theorem rdN_ok {w : Nat} {a : List (BitVec w)} {i : Nat} (h : i < a.length) : rdN a i = .ok (a.getD i 0).toNat := by
  simp [rdN, rd_ok 0 h]

theorem POLT2BS_3Blk_bits (d0 d1 d2 d3 d4 d5 d6 d7 r j : Nat) (hr : r < 3) (hj : j < 8) :
    ((POLT2BS_3Blk d0 d1 d2 d3 d4 d5 d6 d7).getD r 0).getLsbD j = ([d0, d1, d2, d3, d4, d5, d6, d7].getD ((8 * r + j) / 3) 0).testBit ((8 * r + j) % 3) := by
  simp only [POLT2BS_3Blk]
  interval_cases r <;> interval_cases j <;> bits_tac

theorem POLT2BS_3_ok (bytes : List Byte) (off : Nat) (data : List (BitVec 16)) (hd : data.length = 256)
    (hb : off + 96 ≤ bytes.length) :
    POLT2BS_3 bytes off data = .ok (writeAt bytes off (pack 3 (toP data))) := by
  let D : Nat → Nat := fun i => (data.getD i 0).toNat
  let vs : Nat → List Byte := fun j => POLT2BS_3Blk (D (8 * j + 0)) (D (8 * j + 1)) (D (8 * j + 2)) (D (8 * j + 3)) (D (8 * j + 4)) (D (8 * j + 5)) (D (8 * j + 6)) (D (8 * j + 7))
  have hw : ∀ j, (vs j).length = 3 := fun j => rfl
  unfold POLT2BS_3
  rw [show N / 8 = 32 from rfl, loop_blocks 3 vs hw 32 bytes off (by omega),
    pack_of_blocks 3 8 3 32 (by omega) (by omega) rfl rfl data vs hw]
  · intro q hq r hr j hj
    simp only [vs]
    rw [POLT2BS_3Blk_bits _ _ _ _ _ _ _ _ r j hr hj]
    have ht : (8 * r + j) / 3 < 8 := by omega
    generalize (8 * r + j) / 3 = t at ht ⊢
    generalize (8 * r + j) % 3 = u
    interval_cases t <;>
      simp only [List.getD_cons_zero, List.getD_cons_succ, D, BitVec.testBit_toNat]
  · intro j a' hj ha
    simp only [rdN_ok, hd, show 8 * j + 0 < 256 by omega, show 8 * j + 1 < 256 by omega, show 8 * j + 2 < 256 by omega, show 8 * j + 3 < 256 by omega, show 8 * j + 4 < 256 by omega, show 8 * j + 5 < 256 by omega, show 8 * j + 6 < 256 by omega, show 8 * j + 7 < 256 by omega, ok_bind, vs, D]

theorem POLT2BS_4Blk_bits (d0 d1 r j : Nat) (hr : r < 1) (hj : j < 8) :
    ((POLT2BS_4Blk d0 d1).getD r 0).getLsbD j = ([d0, d1].getD ((8 * r + j) / 4) 0).testBit ((8 * r + j) % 4) := by
  simp only [POLT2BS_4Blk]
  interval_cases r <;> interval_cases j <;> bits_tac

theorem POLT2BS_4_ok (bytes : List Byte) (off : Nat) (data : List (BitVec 16)) (hd : data.length = 256)
    (hb : off + 128 ≤ bytes.length) :
    POLT2BS_4 bytes off data = .ok (writeAt bytes off (pack 4 (toP data))) := by
  let D : Nat → Nat := fun i => (data.getD i 0).toNat
  let vs : Nat → List Byte := fun j => POLT2BS_4Blk (D (2 * j + 0)) (D (2 * j + 1))
  have hw : ∀ j, (vs j).length = 1 := fun j => rfl
  unfold POLT2BS_4
  rw [show N / 2 = 128 from rfl, loop_blocks 1 vs hw 128 bytes off (by omega),
    pack_of_blocks 4 2 1 128 (by omega) (by omega) rfl rfl data vs hw]
  · intro q hq r hr j hj
    simp only [vs]
    rw [POLT2BS_4Blk_bits _ _ r j hr hj]
    have ht : (8 * r + j) / 4 < 2 := by omega
    generalize (8 * r + j) / 4 = t at ht ⊢
    generalize (8 * r + j) % 4 = u
    interval_cases t <;>
      simp only [List.getD_cons_zero, List.getD_cons_succ, D, BitVec.testBit_toNat]
  · intro j a' hj ha
    simp only [rdN_ok, hd, show 2 * j + 0 < 256 by omega, show 2 * j + 1 < 256 by omega, ok_bind, vs, D]

theorem POLT2BS_6Blk_bits (d0 d1 d2 d3 r j : Nat) (hr : r < 3) (hj : j < 8) :
    ((POLT2BS_6Blk d0 d1 d2 d3).getD r 0).getLsbD j = ([d0, d1, d2, d3].getD ((8 * r + j) / 6) 0).testBit ((8 * r + j) % 6) := by
  simp only [POLT2BS_6Blk]
  interval_cases r <;> interval_cases j <;> bits_tac

theorem POLT2BS_6_ok (bytes : List Byte) (off : Nat) (data : List (BitVec 16)) (hd : data.length = 256)
    (hb : off + 192 ≤ bytes.length) :
    POLT2BS_6 bytes off data = .ok (writeAt bytes off (pack 6 (toP data))) := by
  let D : Nat → Nat := fun i => (data.getD i 0).toNat
  let vs : Nat → List Byte := fun j => POLT2BS_6Blk (D (4 * j + 0)) (D (4 * j + 1)) (D (4 * j + 2)) (D (4 * j + 3))
  have hw : ∀ j, (vs j).length = 3 := fun j => rfl
  unfold POLT2BS_6
  rw [show N / 4 = 64 from rfl, loop_blocks 3 vs hw 64 bytes off (by omega),
    pack_of_blocks 6 4 3 64 (by omega) (by omega) rfl rfl data vs hw]
  · intro q hq r hr j hj
    simp only [vs]
    rw [POLT2BS_6Blk_bits _ _ _ _ r j hr hj]
    have ht : (8 * r + j) / 6 < 4 := by omega
    generalize (8 * r + j) / 6 = t at ht ⊢
    generalize (8 * r + j) % 6 = u
    interval_cases t <;>
      simp only [List.getD_cons_zero, List.getD_cons_succ, D, BitVec.testBit_toNat]
  · intro j a' hj ha
    simp only [rdN_ok, hd, show 4 * j + 0 < 256 by omega, show 4 * j + 1 < 256 by omega, show 4 * j + 2 < 256 by omega, show 4 * j + 3 < 256 by omega, ok_bind, vs, D]

theorem BS2POLT_3Blk_bits (b0 b1 b2 r j : Nat) (hr : r < 8) (hj : j < 16) :
    ((BS2POLT_3Blk b0 b1 b2).getD r 0).getLsbD j =
      (decide (j < 3) && ([b0, b1, b2].getD ((3 * r + j) / 8) 0).testBit ((3 * r + j) % 8)) := by
  simp only [BS2POLT_3Blk]
  interval_cases r <;> interval_cases j <;> bits_tac

theorem BS2POLT_3_ok (bytes : List Byte) (off : Nat) (data : List (BitVec 16)) (hd : data.length = 256)
    (hb : off + 96 ≤ bytes.length) :
    BS2POLT_3 bytes off data = .ok (ofP (unpack 3 (bytes.drop off))) := by
  let D : Nat → Nat := fun i => (bytes.getD i 0).toNat
  let vs : Nat → List (BitVec 16) := fun j => BS2POLT_3Blk (D (off + 3 * j + 0)) (D (off + 3 * j + 1)) (D (off + 3 * j + 2))
  have hw : ∀ j, (vs j).length = 8 := fun j => rfl
  have hu := unpack_of_blocks 3 8 3 32 (by omega) rfl rfl bytes off vs hw (by
    intro q hq r hr j hj
    simp only [vs]
    rw [BS2POLT_3Blk_bits _ _ _ r j hr hj]
    by_cases hjk : j < 3
    · have ht : (3 * r + j) / 8 < 3 := by omega
      generalize (3 * r + j) / 8 = t at ht ⊢
      generalize (3 * r + j) % 8 = u
      interval_cases t <;>
        simp only [List.getD_cons_zero, List.getD_cons_succ, D, BitVec.testBit_toNat]
    · simp [hjk])
  unfold BS2POLT_3
  rw [show N / 8 = 32 from rfl, loop_blocks 8 vs hw 32 data 0 (by omega), hu, writeAt_full _ _ (by simp [hd])]
  intro j a' hj ha
  simp only [rdN_ok, show off + 3 * j + 0 < bytes.length by omega, show off + 3 * j + 1 < bytes.length by omega, show off + 3 * j + 2 < bytes.length by omega, ok_bind, vs, D, Nat.zero_add]

theorem BS2POLT_4Blk_bits (b0 r j : Nat) (hr : r < 2) (hj : j < 16) :
    ((BS2POLT_4Blk b0).getD r 0).getLsbD j =
      (decide (j < 4) && ([b0].getD ((4 * r + j) / 8) 0).testBit ((4 * r + j) % 8)) := by
  simp only [BS2POLT_4Blk]
  interval_cases r <;> interval_cases j <;> bits_tac

theorem BS2POLT_4_ok (bytes : List Byte) (off : Nat) (data : List (BitVec 16)) (hd : data.length = 256)
    (hb : off + 128 ≤ bytes.length) :
    BS2POLT_4 bytes off data = .ok (ofP (unpack 4 (bytes.drop off))) := by
  let D : Nat → Nat := fun i => (bytes.getD i 0).toNat
  let vs : Nat → List (BitVec 16) := fun j => BS2POLT_4Blk (D (off + 1 * j + 0))
  have hw : ∀ j, (vs j).length = 2 := fun j => rfl
  have hu := unpack_of_blocks 4 2 1 128 (by omega) rfl rfl bytes off vs hw (by
    intro q hq r hr j hj
    simp only [vs]
    rw [BS2POLT_4Blk_bits _ r j hr hj]
    by_cases hjk : j < 4
    · have ht : (4 * r + j) / 8 < 1 := by omega
      generalize (4 * r + j) / 8 = t at ht ⊢
      generalize (4 * r + j) % 8 = u
      interval_cases t <;>
        simp only [List.getD_cons_zero, List.getD_cons_succ, D, BitVec.testBit_toNat]
    · simp [hjk])
  unfold BS2POLT_4
  rw [show N / 2 = 128 from rfl, loop_blocks 2 vs hw 128 data 0 (by omega), hu, writeAt_full _ _ (by simp [hd])]
  intro j a' hj ha
  simp only [rdN_ok, show off + 1 * j + 0 < bytes.length by omega, ok_bind, vs, D, Nat.zero_add]

theorem BS2POLT_6Blk_bits (b0 b1 b2 r j : Nat) (hr : r < 4) (hj : j < 16) :
    ((BS2POLT_6Blk b0 b1 b2).getD r 0).getLsbD j =
      (decide (j < 6) && ([b0, b1, b2].getD ((6 * r + j) / 8) 0).testBit ((6 * r + j) % 8)) := by
  simp only [BS2POLT_6Blk]
  interval_cases r <;> interval_cases j <;> bits_tac

theorem BS2POLT_6_ok (bytes : List Byte) (off : Nat) (data : List (BitVec 16)) (hd : data.length = 256)
    (hb : off + 192 ≤ bytes.length) :
    BS2POLT_6 bytes off data = .ok (ofP (unpack 6 (bytes.drop off))) := by
  let D : Nat → Nat := fun i => (bytes.getD i 0).toNat
  let vs : Nat → List (BitVec 16) := fun j => BS2POLT_6Blk (D (off + 3 * j + 0)) (D (off + 3 * j + 1)) (D (off + 3 * j + 2))
  have hw : ∀ j, (vs j).length = 4 := fun j => rfl
  have hu := unpack_of_blocks 6 4 3 64 (by omega) rfl rfl bytes off vs hw (by
    intro q hq r hr j hj
    simp only [vs]
    rw [BS2POLT_6Blk_bits _ _ _ r j hr hj]
    by_cases hjk : j < 6
    · have ht : (6 * r + j) / 8 < 3 := by omega
      generalize (6 * r + j) / 8 = t at ht ⊢
      generalize (6 * r + j) % 8 = u
      interval_cases t <;>
        simp only [List.getD_cons_zero, List.getD_cons_succ, D, BitVec.testBit_toNat]
    · simp [hjk])
  unfold BS2POLT_6
  rw [show N / 4 = 64 from rfl, loop_blocks 4 vs hw 64 data 0 (by omega), hu, writeAt_full _ _ (by simp [hd])]
  intro j a' hj ha
  simp only [rdN_ok, show off + 3 * j + 0 < bytes.length by omega, show off + 3 * j + 1 < bytes.length by omega, show off + 3 * j + 2 < bytes.length by omega, ok_bind, vs, D, Nat.zero_add]

theorem POLq2BSBlk_bits (d0 d1 d2 d3 d4 d5 d6 d7 r j : Nat) (hr : r < 13) (hj : j < 8) :
    ((POLq2BSBlk d0 d1 d2 d3 d4 d5 d6 d7).getD r 0).getLsbD j = ([d0, d1, d2, d3, d4, d5, d6, d7].getD ((8 * r + j) / 13) 0).testBit ((8 * r + j) % 13) := by
  simp only [POLq2BSBlk]
  interval_cases r <;> interval_cases j <;> bits_tac

theorem POLq2BS_ok (bytes : List Byte) (off : Nat) (data : List (BitVec 16)) (hd : data.length = 256)
    (hb : off + 416 ≤ bytes.length) :
    POLq2BS bytes off data = .ok (writeAt bytes off (pack 13 (toP data))) := by
  let D : Nat → Nat := fun i => (data.getD i 0).toNat
  let vs : Nat → List Byte := fun j => POLq2BSBlk (D (8 * j + 0)) (D (8 * j + 1)) (D (8 * j + 2)) (D (8 * j + 3)) (D (8 * j + 4)) (D (8 * j + 5)) (D (8 * j + 6)) (D (8 * j + 7))
  have hw : ∀ j, (vs j).length = 13 := fun j => rfl
  unfold POLq2BS
  rw [show N / 8 = 32 from rfl, loop_blocks 13 vs hw 32 bytes off (by omega),
    pack_of_blocks 13 8 13 32 (by omega) (by omega) rfl rfl data vs hw]
  · intro q hq r hr j hj
    simp only [vs]
    rw [POLq2BSBlk_bits _ _ _ _ _ _ _ _ r j hr hj]
    have ht : (8 * r + j) / 13 < 8 := by omega
    generalize (8 * r + j) / 13 = t at ht ⊢
    generalize (8 * r + j) % 13 = u
    interval_cases t <;>
      simp only [List.getD_cons_zero, List.getD_cons_succ, D, BitVec.testBit_toNat]
  · intro j a' hj ha
    simp only [rdN_ok, hd, show 8 * j + 0 < 256 by omega, show 8 * j + 1 < 256 by omega, show 8 * j + 2 < 256 by omega, show 8 * j + 3 < 256 by omega, show 8 * j + 4 < 256 by omega, show 8 * j + 5 < 256 by omega, show 8 * j + 6 < 256 by omega, show 8 * j + 7 < 256 by omega, ok_bind, vs, D]

theorem BS2POLqBlk_bits (b0 b1 b2 b3 b4 b5 b6 b7 b8 b9 b10 b11 b12 r j : Nat) (hr : r < 8) (hj : j < 16) :
    ((BS2POLqBlk b0 b1 b2 b3 b4 b5 b6 b7 b8 b9 b10 b11 b12).getD r 0).getLsbD j =
      (decide (j < 13) && ([b0, b1, b2, b3, b4, b5, b6, b7, b8, b9, b10, b11, b12].getD ((13 * r + j) / 8) 0).testBit ((13 * r + j) % 8)) := by
  simp only [BS2POLqBlk]
  interval_cases r <;> interval_cases j <;> bits_tac

theorem BS2POLq_ok (bytes : List Byte) (off : Nat) (data : List (BitVec 16)) (hd : data.length = 256)
    (hb : off + 416 ≤ bytes.length) :
    BS2POLq bytes off data = .ok (ofP (unpack 13 (bytes.drop off))) := by
  let D : Nat → Nat := fun i => (bytes.getD i 0).toNat
  let vs : Nat → List (BitVec 16) := fun j => BS2POLqBlk (D (off + 13 * j + 0)) (D (off + 13 * j + 1)) (D (off + 13 * j + 2)) (D (off + 13 * j + 3)) (D (off + 13 * j + 4)) (D (off + 13 * j + 5)) (D (off + 13 * j + 6)) (D (off + 13 * j + 7)) (D (off + 13 * j + 8)) (D (off + 13 * j + 9)) (D (off + 13 * j + 10)) (D (off + 13 * j + 11)) (D (off + 13 * j + 12))
  have hw : ∀ j, (vs j).length = 8 := fun j => rfl
  have hu := unpack_of_blocks 13 8 13 32 (by omega) rfl rfl bytes off vs hw (by
    intro q hq r hr j hj
    simp only [vs]
    rw [BS2POLqBlk_bits _ _ _ _ _ _ _ _ _ _ _ _ _ r j hr hj]
    by_cases hjk : j < 13
    · have ht : (13 * r + j) / 8 < 13 := by omega
      generalize (13 * r + j) / 8 = t at ht ⊢
      generalize (13 * r + j) % 8 = u
      interval_cases t <;>
        simp only [List.getD_cons_zero, List.getD_cons_succ, D, BitVec.testBit_toNat]
    · simp [hjk])
  unfold BS2POLq
  rw [show N / 8 = 32 from rfl, loop_blocks 8 vs hw 32 data 0 (by omega), hu, writeAt_full _ _ (by simp [hd])]
  intro j a' hj ha
  simp only [rdN_ok, show off + 13 * j + 0 < bytes.length by omega, show off + 13 * j + 1 < bytes.length by omega, show off + 13 * j + 2 < bytes.length by omega, show off + 13 * j + 3 < bytes.length by omega, show off + 13 * j + 4 < bytes.length by omega, show off + 13 * j + 5 < bytes.length by omega, show off + 13 * j + 6 < bytes.length by omega, show off + 13 * j + 7 < bytes.length by omega, show off + 13 * j + 8 < bytes.length by omega, show off + 13 * j + 9 < bytes.length by omega, show off + 13 * j + 10 < bytes.length by omega, show off + 13 * j + 11 < bytes.length by omega, show off + 13 * j + 12 < bytes.length by omega, ok_bind, vs, D, Nat.zero_add]

theorem POLp2BSBlk_bits (d0 d1 d2 d3 r j : Nat) (hr : r < 5) (hj : j < 8) :
    ((POLp2BSBlk d0 d1 d2 d3).getD r 0).getLsbD j = ([d0, d1, d2, d3].getD ((8 * r + j) / 10) 0).testBit ((8 * r + j) % 10) := by
  simp only [POLp2BSBlk]
  interval_cases r <;> interval_cases j <;> bits_tac

theorem POLp2BS_ok (bytes : List Byte) (off : Nat) (data : List (BitVec 16)) (hd : data.length = 256)
    (hb : off + 320 ≤ bytes.length) :
    POLp2BS bytes off data = .ok (writeAt bytes off (pack 10 (toP data))) := by
  let D : Nat → Nat := fun i => (data.getD i 0).toNat
  let vs : Nat → List Byte := fun j => POLp2BSBlk (D (4 * j + 0)) (D (4 * j + 1)) (D (4 * j + 2)) (D (4 * j + 3))
  have hw : ∀ j, (vs j).length = 5 := fun j => rfl
  unfold POLp2BS
  rw [show N / 4 = 64 from rfl, loop_blocks 5 vs hw 64 bytes off (by omega),
    pack_of_blocks 10 4 5 64 (by omega) (by omega) rfl rfl data vs hw]
  · intro q hq r hr j hj
    simp only [vs]
    rw [POLp2BSBlk_bits _ _ _ _ r j hr hj]
    have ht : (8 * r + j) / 10 < 4 := by omega
    generalize (8 * r + j) / 10 = t at ht ⊢
    generalize (8 * r + j) % 10 = u
    interval_cases t <;>
      simp only [List.getD_cons_zero, List.getD_cons_succ, D, BitVec.testBit_toNat]
  · intro j a' hj ha
    simp only [rdN_ok, hd, show 4 * j + 0 < 256 by omega, show 4 * j + 1 < 256 by omega, show 4 * j + 2 < 256 by omega, show 4 * j + 3 < 256 by omega, ok_bind, vs, D]

theorem BS2POLpBlk_bits (b0 b1 b2 b3 b4 r j : Nat) (hr : r < 4) (hj : j < 16) :
    ((BS2POLpBlk b0 b1 b2 b3 b4).getD r 0).getLsbD j =
      (decide (j < 10) && ([b0, b1, b2, b3, b4].getD ((10 * r + j) / 8) 0).testBit ((10 * r + j) % 8)) := by
  simp only [BS2POLpBlk]
  interval_cases r <;> interval_cases j <;> bits_tac

theorem BS2POLp_ok (bytes : List Byte) (off : Nat) (data : List (BitVec 16)) (hd : data.length = 256)
    (hb : off + 320 ≤ bytes.length) :
    BS2POLp bytes off data = .ok (ofP (unpack 10 (bytes.drop off))) := by
  let D : Nat → Nat := fun i => (bytes.getD i 0).toNat
  let vs : Nat → List (BitVec 16) := fun j => BS2POLpBlk (D (off + 5 * j + 0)) (D (off + 5 * j + 1)) (D (off + 5 * j + 2)) (D (off + 5 * j + 3)) (D (off + 5 * j + 4))
  have hw : ∀ j, (vs j).length = 4 := fun j => rfl
  have hu := unpack_of_blocks 10 4 5 64 (by omega) rfl rfl bytes off vs hw (by
    intro q hq r hr j hj
    simp only [vs]
    rw [BS2POLpBlk_bits _ _ _ _ _ r j hr hj]
    by_cases hjk : j < 10
    · have ht : (10 * r + j) / 8 < 5 := by omega
      generalize (10 * r + j) / 8 = t at ht ⊢
      generalize (10 * r + j) % 8 = u
      interval_cases t <;>
        simp only [List.getD_cons_zero, List.getD_cons_succ, D, BitVec.testBit_toNat]
    · simp [hjk])
  unfold BS2POLp
  rw [show N / 4 = 64 from rfl, loop_blocks 4 vs hw 64 data 0 (by omega), hu, writeAt_full _ _ (by simp [hd])]
  intro j a' hj ha
  simp only [rdN_ok, show off + 5 * j + 0 < bytes.length by omega, show off + 5 * j + 1 < bytes.length by omega, show off + 5 * j + 2 < bytes.length by omega, show off + 5 * j + 3 < bytes.length by omega, show off + 5 * j + 4 < bytes.length by omega, ok_bind, vs, D, Nat.zero_add]

theorem POLT2BS_ok (P : PSet) (bytes : List Byte) (off : Nat) (data : List (BitVec 16)) (hd : data.length = 256)
    (hb : off + 32 * P.ET ≤ bytes.length) :
    POLT2BS P bytes off data = .ok (writeAt bytes off (pack P.ET (toP data))) := by
  cases P
  · exact POLT2BS_3_ok bytes off data hd hb
  · exact POLT2BS_4_ok bytes off data hd hb
  · exact POLT2BS_6_ok bytes off data hd hb

theorem BS2POLT_ok (P : PSet) (bytes : List Byte) (off : Nat) (data : List (BitVec 16)) (hd : data.length = 256)
    (hb : off + 32 * P.ET ≤ bytes.length) :
    BS2POLT P bytes off data = .ok (ofP (unpack P.ET (bytes.drop off))) := by
  cases P
  · exact BS2POLT_3_ok bytes off data hd hb
  · exact BS2POLT_4_ok bytes off data hd hb
  · exact BS2POLT_6_ok bytes off data hd hb

theorem finRange_map_val {α : Type} (L : Nat) (f : Nat → α) :
    (List.finRange L).map (fun i => f i.val) = (List.range L).map f := by
  apply List.ext_getElem <;> simp

theorem finRange_flatMap_val {α : Type} (L : Nat) (f : Nat → List α) :
    (List.finRange L).flatMap (fun i => f i.val) = (List.range L).flatMap f := by
  rw [List.flatMap_def, List.flatMap_def, finRange_map_val]

theorem packVec_toV (k L : Nat) (data : List (List (BitVec 16))) :
    packVec k (toV L data) = (List.range L).flatMap fun i => pack k (toP (data.getD i [])) := by
  rw [packVec, ← finRange_flatMap_val]; rfl

@[simp] theorem length_packVec (k L : Nat) (v : Fin L → Poly) : (packVec k v).length = L * (32 * k) := by
  rw [packVec, List.length_flatMap]
  simp only [length_pack]
  rw [List.map_const', List.sum_replicate_nat, List.length_finRange]

theorem isVec_ofV {L : Nat} (v : Fin L → Poly) : IsVec L (ofV v) := by
  constructor
  · simp [ofV]
  · intro i hi
    simp [ofV, hi]

theorem POLVECq2BS_ok (P : PSet) (bytes : List Byte) (off : Nat) (data : List (List (BitVec 16)))
    (hd : IsVec P.L data) (hb : off + P.L * 416 ≤ bytes.length) :
    POLVECq2BS P bytes off data = .ok (writeAt bytes off (packVec 13 (toV P.L data))) := by
  unfold POLVECq2BS
  rw [packVec_toV]
  apply loop_blocks 416 _ (fun _ => length_pack _ _) P.L bytes off (by omega)
  intro j a' hj ha
  have h1 : 416 * j + 416 ≤ P.L * 416 := by
    have := Nat.mul_le_mul_left 416 (show j + 1 ≤ P.L by omega); omega
  have e : j * POLYBYTES = 416 * j := Nat.mul_comm _ _
  rw [rd_ok [] (by rw [hd.1]; exact hj), ok_bind, e, POLq2BS_ok _ _ _ (hd.2 j hj) (by omega), wrs_ok]
  simp; omega

theorem POLVECp2BS_ok (P : PSet) (bytes : List Byte) (off : Nat) (data : List (List (BitVec 16)))
    (hd : IsVec P.L data) (hb : off + P.L * 320 ≤ bytes.length) :
    POLVECp2BS P bytes off data = .ok (writeAt bytes off (packVec 10 (toV P.L data))) := by
  unfold POLVECp2BS
  rw [packVec_toV]
  apply loop_blocks 320 _ (fun _ => length_pack _ _) P.L bytes off (by omega)
  intro j a' hj ha
  have h1 : 320 * j + 320 ≤ P.L * 320 := by
    have := Nat.mul_le_mul_left 320 (show j + 1 ≤ P.L by omega); omega
  have e : j * (EP * N / 8) = 320 * j := Nat.mul_comm _ _
  rw [rd_ok [] (by rw [hd.1]; exact hj), ok_bind, e, POLp2BS_ok _ _ _ (hd.2 j hj) (by omega), wrs_ok]
  simp; omega

theorem BS2POLVECq_ok (P : PSet) (bytes : List Byte) (off : Nat) (data : List (List (BitVec 16)))
    (hd : IsVec P.L data) (hb : off + P.L * 416 ≤ bytes.length) :
    BS2POLVECq P bytes off data = .ok (ofV (unpackVec 13 P.L (bytes.drop off))) := by
  unfold BS2POLVECq
  rw [loop_rows P.L data hd.1 [] (fun i => ofP (unpack 13 ((bytes.drop off).drop (32 * 13 * i))))]
  · rw [← finRange_map_val]; rfl
  · intro j a' hj ha hr
    have h1 : 416 * j + 416 ≤ P.L * 416 := by
      have := Nat.mul_le_mul_left 416 (show j + 1 ≤ P.L by omega); omega
    have e : j * POLYBYTES = 32 * 13 * j := Nat.mul_comm _ _
    rw [rd_ok [] (by omega), ok_bind, hr, e, BS2POLq_ok _ _ _ (hd.2 j hj) (by omega), ok_bind,
      wr_ok (by omega), List.drop_drop]

theorem BS2POLVECp_ok (P : PSet) (bytes : List Byte) (off : Nat) (data : List (List (BitVec 16)))
    (hd : IsVec P.L data) (hb : off + P.L * 320 ≤ bytes.length) :
    BS2POLVECp P bytes off data = .ok (ofV (unpackVec 10 P.L (bytes.drop off))) := by
  unfold BS2POLVECp
  rw [loop_rows P.L data hd.1 [] (fun i => ofP (unpack 10 ((bytes.drop off).drop (32 * 10 * i))))]
  · rw [← finRange_map_val]; rfl
  · intro j a' hj ha hr
    have h1 : 320 * j + 320 ≤ P.L * 320 := by
      have := Nat.mul_le_mul_left 320 (show j + 1 ≤ P.L by omega); omega
    have e : j * (EP * N / 8) = 32 * 10 * j := Nat.mul_comm _ _
    rw [rd_ok [] (by omega), ok_bind, hr, e, BS2POLp_ok _ _ _ (hd.2 j hj) (by omega), ok_bind,
      wr_ok (by omega), List.drop_drop]

theorem wr_eq_wrs {α : Type} (a : List α) (i : Nat) (v : α) : wr a i v = wrs a i [v] := by
  simp only [wrs]; cases wr a i v <;> rfl

theorem BS2POLmsg_ok (bytes : List Byte) (off : Nat) (data : List (BitVec 16)) (hd : data.length = 256)
    (hb : off + 32 ≤ bytes.length) :
    BS2POLmsg bytes off data = .ok (ofP (unpack 1 (bytes.drop off))) := by
  let vs : Nat → List (BitVec 16) := fun j =>
    (List.range 8).map fun i => n16 (((bytes.getD (off + j) 0).toNat >>> i) &&& 0x01)
  have hw : ∀ j, (vs j).length = 8 := fun j => rfl
  have hu := unpack_of_blocks 1 8 1 32 (by omega) rfl rfl bytes off vs hw (by
    intro q hq r hr j hj
    simp only [vs]
    rw [getD_map_range _ _ _ _ hr]
    generalize hB : bytes.getD (off + 1 * q + (1 * r + j) / 8) 0 = B
    by_cases h0 : j = 0
    · subst h0
      have e : off + 1 * q + (1 * r + 0) / 8 = off + q := by omega
      rw [e] at hB
      rw [hB, n16, BitVec.getLsbD_ofNat, Nat.testBit_and, Nat.testBit_shiftRight]
      simp [BitVec.testBit_toNat, Nat.mod_eq_of_lt hr]
    · have h1 : ¬ j < 1 := by omega
      have : Nat.testBit 1 j = false := by
        apply Nat.testBit_lt_two_pow
        exact Nat.one_lt_two_pow h0
      rw [n16, BitVec.getLsbD_ofNat, Nat.testBit_and]
      simp [h1, this])
  unfold BS2POLmsg
  rw [show KEYBYTES = 32 from rfl, loop_blocks 8 vs hw 32 data 0 (by omega), hu, writeAt_full _ _ (by simp [hd])]
  intro j a' hj ha
  rw [loop_blocks 1 (fun i => [n16 (((bytes.getD (off + j) 0).toNat >>> i) &&& 0x01)]) (fun _ => rfl) 8 a' (j * 8)
    (by omega), flatMap_singleton_eq_map, wrs_ok _ _ _ (by rw [hw]; omega)]
  · rw [Nat.zero_add, Nat.mul_comm]
  · intro i a'' hi ha''
    rw [rdN_ok (by omega), ok_bind, wr_eq_wrs, Nat.one_mul]

theorem or_bit_natOfBits (i : Nat) (f : Nat → Bool) (d : Nat) (hf : d.testBit 0 = f i) :
    natOfBits i f ||| ((d &&& 0x01) <<< i) = natOfBits (i + 1) f := by
  apply Nat.eq_of_testBit_eq
  intro j
  rw [Nat.testBit_or, natOfBits_testBit, natOfBits_testBit, Nat.testBit_shiftLeft, Nat.testBit_and]
  by_cases h1 : j < i
  · have : ¬ i ≤ j := by omega
    have h2 : j < i + 1 := by omega
    simp [h1, this, h2]
  · by_cases h2 : j = i
    · subst h2; simp [← hf]
    · have h3 : ¬ j < i + 1 := by omega
      have : Nat.testBit 1 (j - i) = false := by
        apply Nat.testBit_lt_two_pow
        exact Nat.one_lt_two_pow (by omega)
      simp [h1, h3, this]

theorem POLmsg2BS_ok (bytes : List Byte) (off : Nat) (data : List (BitVec 16)) (hd : data.length = 256)
    (hb : off + 32 ≤ bytes.length) :
    POLmsg2BS bytes off data = .ok (writeAt bytes off (pack 1 (toP data))) := by
  unfold POLmsg2BS
  rw [show KEYBYTES = 32 from rfl, memset_ok _ _ _ _ hb, ok_bind]
  let g : Nat → Byte := fun m => BitVec.ofNat 8 (natOfBits 8 fun j => (data.getD (8 * m + j) 0).getLsbD 0)
  have hg : (List.range 32).map g = pack 1 (toP data) := by
    rw [pack]
    apply List.map_congr_left
    intro m hm
    simp at hm
    simp only [g]
    congr 1
    apply natOfBits_congr
    intro j hj
    rw [streamBit_toP _ _ _ (by omega)]
    simp [Nat.mod_one]
  rw [← hg]
  have key : ∀ k, k ≤ 32 →
      loop k (writeAt bytes off (List.replicate 32 0)) (fun j bytes =>
        loop 8 bytes fun i bytes => do
          let b ← rdN bytes (off + j)
          let d ← rdN data (j * 8 + i)
          wr bytes (off + j) (n8 (b ||| ((d &&& 0x01) <<< i)))) =
      .ok (writeAt bytes off ((List.range k).map g ++ List.replicate (32 - k) 0)) := by
    intro k
    induction k with
    | zero => intro _; simp
    | succ k ih =>
      intro hk
      rw [loop_succ, ih (by omega), ok_bind]
      have hinner : ∀ (s : List Byte) (i : Nat), i ≤ 8 → off + k < s.length → s.getD (off + k) 0 = 0 →
          loop i s (fun i bytes => do
            let b ← rdN bytes (off + k)
            let d ← rdN data (k * 8 + i)
            wr bytes (off + k) (n8 (b ||| ((d &&& 0x01) <<< i)))) =
          .ok (s.set (off + k) (BitVec.ofNat 8 (natOfBits i fun j => (data.getD (8 * k + j) 0).getLsbD 0))) := by
        intro s i
        induction i with
        | zero =>
          intro _ hs h0
          have : BitVec.ofNat 8 (natOfBits 0 fun j => (data.getD (8 * k + j) 0).getLsbD 0) = 0 := rfl
          rw [this, loop_zero]
          congr 1
          apply List.ext_getElem (by simp)
          intro m h1 h2
          rw [List.getElem_set]
          split
          · rename_i h; subst h
            simpa [hs] using h0
          · rfl
        | succ i ih2 =>
          intro hi hs h0
          rw [loop_succ, ih2 (by omega) hs h0, ok_bind, rdN_ok (by simp; omega), ok_bind, rdN_ok (by omega), ok_bind,
            wr_ok (by simp; omega), getD_set]
          have hc : off + k = off + k ∧ off + k < s.length := ⟨rfl, hs⟩
          rw [if_pos hc, List.set_set]
          congr 2
          rw [n8, BitVec.toNat_ofNat]
          have hlt := natOfBits_lt i fun j => (data.getD (8 * k + j) 0).getLsbD 0
          have h256 : (2:Nat) ^ i ≤ 2 ^ 8 := Nat.pow_le_pow_right (by omega) (by omega)
          rw [Nat.mod_eq_of_lt (by omega), or_bit_natOfBits]
          rw [Nat.mul_comm, BitVec.testBit_toNat]
      have hlen : (writeAt bytes off ((List.range k).map g ++ List.replicate (32 - k) 0)).length = bytes.length :=
        length_writeAt _ _ _ (by simp; omega)
      have hsplit : List.replicate (32 - k) (0 : Byte) = 0 :: List.replicate (32 - (k + 1)) 0 := by
        rw [show 32 - k = (32 - (k + 1)) + 1 by omega, List.replicate_succ]
      rw [hinner _ 8 (by omega) (by rw [hlen]; omega) ?_]
      · congr 1
        rw [range_map_succ, hsplit]
        simp only [writeAt]
        rw [List.set_append_left _ _ (by simp; omega), List.set_append_right _ _ (by simp),
          List.set_append_right _ _ (by simp; omega)]
        have e : off + k - (List.take off bytes).length - ((List.range k).map g).length = 0 := by
          simp; omega
        rw [e]
        simp [g]
      · rw [hsplit]
        simp only [writeAt, List.getD_eq_getElem?_getD]
        rw [List.getElem?_append_left (by simp; omega), List.getElem?_append_right (by simp),
          List.getElem?_append_right (by simp; omega)]
        have e : off + k - (List.take off bytes).length - ((List.range k).map g).length = 0 := by
          simp; omega
        rw [e]; rfl
  have := key 32 (by omega)
  simpa using this

end Saber
