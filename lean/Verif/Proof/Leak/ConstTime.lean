import Verif.Proof.Leak.Logic
/-! # The events do not depend on the data -/
set_option linter.unusedSectionVars false

namespace Saber.Leak

theorem CT_POLT2BS_3 (bytes : List Byte) (bytes' : List Byte) (off : Nat) (data : List (BitVec 16)) (data' : List (BitVec 16)) :
    CT (Saber.Leak.POLT2BS_3 bytes off data) (Saber.Leak.POLT2BS_3 bytes' off data') := by
  unfold Saber.Leak.POLT2BS_3
  repeat ctstep
macro_rules | `(tactic| ctstep) => `(tactic| with_reducible exact Saber.Leak.CT_POLT2BS_3 _ _ _ _ _)

theorem CT_POLT2BS_4 (bytes : List Byte) (bytes' : List Byte) (off : Nat) (data : List (BitVec 16)) (data' : List (BitVec 16)) :
    CT (Saber.Leak.POLT2BS_4 bytes off data) (Saber.Leak.POLT2BS_4 bytes' off data') := by
  unfold Saber.Leak.POLT2BS_4
  repeat ctstep
macro_rules | `(tactic| ctstep) => `(tactic| with_reducible exact Saber.Leak.CT_POLT2BS_4 _ _ _ _ _)

theorem CT_POLT2BS_6 (bytes : List Byte) (bytes' : List Byte) (off : Nat) (data : List (BitVec 16)) (data' : List (BitVec 16)) :
    CT (Saber.Leak.POLT2BS_6 bytes off data) (Saber.Leak.POLT2BS_6 bytes' off data') := by
  unfold Saber.Leak.POLT2BS_6
  repeat ctstep
macro_rules | `(tactic| ctstep) => `(tactic| with_reducible exact Saber.Leak.CT_POLT2BS_6 _ _ _ _ _)

theorem CT_BS2POLT_3 (bytes : List Byte) (bytes' : List Byte) (off : Nat) (data : List (BitVec 16)) (data' : List (BitVec 16)) :
    CT (Saber.Leak.BS2POLT_3 bytes off data) (Saber.Leak.BS2POLT_3 bytes' off data') := by
  unfold Saber.Leak.BS2POLT_3
  repeat ctstep
macro_rules | `(tactic| ctstep) => `(tactic| with_reducible exact Saber.Leak.CT_BS2POLT_3 _ _ _ _ _)

theorem CT_BS2POLT_4 (bytes : List Byte) (bytes' : List Byte) (off : Nat) (data : List (BitVec 16)) (data' : List (BitVec 16)) :
    CT (Saber.Leak.BS2POLT_4 bytes off data) (Saber.Leak.BS2POLT_4 bytes' off data') := by
  unfold Saber.Leak.BS2POLT_4
  repeat ctstep
macro_rules | `(tactic| ctstep) => `(tactic| with_reducible exact Saber.Leak.CT_BS2POLT_4 _ _ _ _ _)

theorem CT_BS2POLT_6 (bytes : List Byte) (bytes' : List Byte) (off : Nat) (data : List (BitVec 16)) (data' : List (BitVec 16)) :
    CT (Saber.Leak.BS2POLT_6 bytes off data) (Saber.Leak.BS2POLT_6 bytes' off data') := by
  unfold Saber.Leak.BS2POLT_6
  repeat ctstep
macro_rules | `(tactic| ctstep) => `(tactic| with_reducible exact Saber.Leak.CT_BS2POLT_6 _ _ _ _ _)

theorem CT_POLq2BS (bytes : List Byte) (bytes' : List Byte) (off : Nat) (data : List (BitVec 16)) (data' : List (BitVec 16)) :
    CT (Saber.Leak.POLq2BS bytes off data) (Saber.Leak.POLq2BS bytes' off data') := by
  unfold Saber.Leak.POLq2BS
  repeat ctstep
macro_rules | `(tactic| ctstep) => `(tactic| with_reducible exact Saber.Leak.CT_POLq2BS _ _ _ _ _)

theorem CT_BS2POLq (bytes : List Byte) (bytes' : List Byte) (off : Nat) (data : List (BitVec 16)) (data' : List (BitVec 16)) :
    CT (Saber.Leak.BS2POLq bytes off data) (Saber.Leak.BS2POLq bytes' off data') := by
  unfold Saber.Leak.BS2POLq
  repeat ctstep
macro_rules | `(tactic| ctstep) => `(tactic| with_reducible exact Saber.Leak.CT_BS2POLq _ _ _ _ _)

theorem CT_POLp2BS (bytes : List Byte) (bytes' : List Byte) (off : Nat) (data : List (BitVec 16)) (data' : List (BitVec 16)) :
    CT (Saber.Leak.POLp2BS bytes off data) (Saber.Leak.POLp2BS bytes' off data') := by
  unfold Saber.Leak.POLp2BS
  repeat ctstep
macro_rules | `(tactic| ctstep) => `(tactic| with_reducible exact Saber.Leak.CT_POLp2BS _ _ _ _ _)

theorem CT_BS2POLp (bytes : List Byte) (bytes' : List Byte) (off : Nat) (data : List (BitVec 16)) (data' : List (BitVec 16)) :
    CT (Saber.Leak.BS2POLp bytes off data) (Saber.Leak.BS2POLp bytes' off data') := by
  unfold Saber.Leak.BS2POLp
  repeat ctstep
macro_rules | `(tactic| ctstep) => `(tactic| with_reducible exact Saber.Leak.CT_BS2POLp _ _ _ _ _)

theorem CT_POLT2BS (P : PSet) (bytes : List Byte) (bytes' : List Byte) (off : Nat) (data : List (BitVec 16)) (data' : List (BitVec 16)) :
    CT (Saber.Leak.POLT2BS P bytes off data) (Saber.Leak.POLT2BS P bytes' off data') := by
  unfold Saber.Leak.POLT2BS
  cases P <;> repeat ctstep
macro_rules | `(tactic| ctstep) => `(tactic| with_reducible exact Saber.Leak.CT_POLT2BS _ _ _ _ _ _)

theorem CT_BS2POLT (P : PSet) (bytes : List Byte) (bytes' : List Byte) (off : Nat) (data : List (BitVec 16)) (data' : List (BitVec 16)) :
    CT (Saber.Leak.BS2POLT P bytes off data) (Saber.Leak.BS2POLT P bytes' off data') := by
  unfold Saber.Leak.BS2POLT
  cases P <;> repeat ctstep
macro_rules | `(tactic| ctstep) => `(tactic| with_reducible exact Saber.Leak.CT_BS2POLT _ _ _ _ _ _)

theorem CT_POLVECq2BS (P : PSet) (bytes : List Byte) (bytes' : List Byte) (off : Nat) (data : List (List (BitVec 16))) (data' : List (List (BitVec 16))) :
    CT (Saber.Leak.POLVECq2BS P bytes off data) (Saber.Leak.POLVECq2BS P bytes' off data') := by
  unfold Saber.Leak.POLVECq2BS
  repeat ctstep
macro_rules | `(tactic| ctstep) => `(tactic| with_reducible exact Saber.Leak.CT_POLVECq2BS _ _ _ _ _ _)

theorem CT_BS2POLVECq (P : PSet) (bytes : List Byte) (bytes' : List Byte) (off : Nat) (data : List (List (BitVec 16))) (data' : List (List (BitVec 16))) :
    CT (Saber.Leak.BS2POLVECq P bytes off data) (Saber.Leak.BS2POLVECq P bytes' off data') := by
  unfold Saber.Leak.BS2POLVECq
  repeat ctstep
macro_rules | `(tactic| ctstep) => `(tactic| with_reducible exact Saber.Leak.CT_BS2POLVECq _ _ _ _ _ _)

theorem CT_POLVECp2BS (P : PSet) (bytes : List Byte) (bytes' : List Byte) (off : Nat) (data : List (List (BitVec 16))) (data' : List (List (BitVec 16))) :
    CT (Saber.Leak.POLVECp2BS P bytes off data) (Saber.Leak.POLVECp2BS P bytes' off data') := by
  unfold Saber.Leak.POLVECp2BS
  repeat ctstep
macro_rules | `(tactic| ctstep) => `(tactic| with_reducible exact Saber.Leak.CT_POLVECp2BS _ _ _ _ _ _)

theorem CT_BS2POLVECp (P : PSet) (bytes : List Byte) (bytes' : List Byte) (off : Nat) (data : List (List (BitVec 16))) (data' : List (List (BitVec 16))) :
    CT (Saber.Leak.BS2POLVECp P bytes off data) (Saber.Leak.BS2POLVECp P bytes' off data') := by
  unfold Saber.Leak.BS2POLVECp
  repeat ctstep
macro_rules | `(tactic| ctstep) => `(tactic| with_reducible exact Saber.Leak.CT_BS2POLVECp _ _ _ _ _ _)

theorem CT_BS2POLmsg (bytes : List Byte) (bytes' : List Byte) (off : Nat) (data : List (BitVec 16)) (data' : List (BitVec 16)) :
    CT (Saber.Leak.BS2POLmsg bytes off data) (Saber.Leak.BS2POLmsg bytes' off data') := by
  unfold Saber.Leak.BS2POLmsg
  repeat ctstep
macro_rules | `(tactic| ctstep) => `(tactic| with_reducible exact Saber.Leak.CT_BS2POLmsg _ _ _ _ _)

theorem CT_POLmsg2BS (bytes : List Byte) (bytes' : List Byte) (off : Nat) (data : List (BitVec 16)) (data' : List (BitVec 16)) :
    CT (Saber.Leak.POLmsg2BS bytes off data) (Saber.Leak.POLmsg2BS bytes' off data') := by
  unfold Saber.Leak.POLmsg2BS
  repeat ctstep
macro_rules | `(tactic| ctstep) => `(tactic| with_reducible exact Saber.Leak.CT_POLmsg2BS _ _ _ _ _)

theorem CT_karaInner (b : List (BitVec 16)) (b' : List (BitVec 16)) (i : Nat) (acc1 : BitVec 16) (acc1' : BitVec 16) (acc2 : BitVec 16) (acc2' : BitVec 16) (acc3 : BitVec 16) (acc3' : BitVec 16) (acc4 : BitVec 16) (acc4' : BitVec 16) (j : Nat) (s : KS) (s' : KS) :
    CT (Saber.Leak.karaInner b i acc1 acc2 acc3 acc4 j s) (Saber.Leak.karaInner b' i acc1' acc2' acc3' acc4' j s') := by
  unfold Saber.Leak.karaInner
  repeat ctstep
macro_rules | `(tactic| ctstep) => `(tactic| with_reducible exact Saber.Leak.CT_karaInner _ _ _ _ _ _ _ _ _ _ _ _ _ _)

theorem CT_karaMul (a : List (BitVec 16)) (a' : List (BitVec 16)) (b : List (BitVec 16)) (b' : List (BitVec 16)) (s : KS) (s' : KS) :
    CT (Saber.Leak.karaMul a b s) (Saber.Leak.karaMul a' b' s') := by
  unfold Saber.Leak.karaMul
  repeat ctstep
macro_rules | `(tactic| ctstep) => `(tactic| with_reducible exact Saber.Leak.CT_karaMul _ _ _ _ _ _)

theorem CT_karaStage1 (i : Nat) (s : KS) (s' : KS) :
    CT (Saber.Leak.karaStage1 i s) (Saber.Leak.karaStage1 i s') := by
  unfold Saber.Leak.karaStage1
  repeat ctstep
macro_rules | `(tactic| ctstep) => `(tactic| with_reducible exact Saber.Leak.CT_karaStage1 _ _ _)

theorem CT_karaStage2 (i : Nat) (s : KS) (s' : KS) :
    CT (Saber.Leak.karaStage2 i s) (Saber.Leak.karaStage2 i s') := by
  unfold Saber.Leak.karaStage2
  repeat ctstep
macro_rules | `(tactic| ctstep) => `(tactic| with_reducible exact Saber.Leak.CT_karaStage2 _ _ _)

theorem CT_karaStage3 (i : Nat) (s : KS) (s' : KS) :
    CT (Saber.Leak.karaStage3 i s) (Saber.Leak.karaStage3 i s') := by
  unfold Saber.Leak.karaStage3
  repeat ctstep
macro_rules | `(tactic| ctstep) => `(tactic| with_reducible exact Saber.Leak.CT_karaStage3 _ _ _)

theorem CT_karaStage4 (i : Nat) (s : KS) (s' : KS) :
    CT (Saber.Leak.karaStage4 i s) (Saber.Leak.karaStage4 i s') := by
  unfold Saber.Leak.karaStage4
  repeat ctstep
macro_rules | `(tactic| ctstep) => `(tactic| with_reducible exact Saber.Leak.CT_karaStage4 _ _ _)

theorem CT_karatsuba_simple (a_1 : List (BitVec 16)) (a_1' : List (BitVec 16)) (b_1 : List (BitVec 16)) (b_1' : List (BitVec 16)) (result_final : List (BitVec 16)) (result_final' : List (BitVec 16)) :
    CT (Saber.Leak.karatsuba_simple a_1 b_1 result_final) (Saber.Leak.karatsuba_simple a_1' b_1' result_final') := by
  unfold Saber.Leak.karatsuba_simple
  repeat ctstep
macro_rules | `(tactic| ctstep) => `(tactic| with_reducible exact Saber.Leak.CT_karatsuba_simple _ _ _ _ _ _)

theorem CT_toomEval (r0 : BitVec 16) (r0' : BitVec 16) (r1 : BitVec 16) (r1' : BitVec 16) (r2 : BitVec 16) (r2' : BitVec 16) (r3 : BitVec 16) (r3' : BitVec 16) :
    CT (Saber.Leak.toomEval r0 r1 r2 r3) (Saber.Leak.toomEval r0' r1' r2' r3') := by
  unfold Saber.Leak.toomEval
  repeat ctstep
macro_rules | `(tactic| ctstep) => `(tactic| with_reducible exact Saber.Leak.CT_toomEval _ _ _ _ _ _ _ _)

theorem CT_toomEvalLoop (a1 : List (BitVec 16)) (a1' : List (BitVec 16)) (s : Ev (List (BitVec 16))) (s' : Ev (List (BitVec 16))) :
    CT (Saber.Leak.toomEvalLoop a1 s) (Saber.Leak.toomEvalLoop a1' s') := by
  unfold Saber.Leak.toomEvalLoop
  repeat ctstep
macro_rules | `(tactic| ctstep) => `(tactic| with_reducible exact Saber.Leak.CT_toomEvalLoop _ _ _ _)

theorem CT_toomInterp (r0 : BitVec 16) (r0' : BitVec 16) (r1 : BitVec 16) (r1' : BitVec 16) (r2 : BitVec 16) (r2' : BitVec 16) (r3 : BitVec 16) (r3' : BitVec 16) (r4 : BitVec 16) (r4' : BitVec 16) (r5 : BitVec 16) (r5' : BitVec 16) (r6 : BitVec 16) (r6' : BitVec 16) :
    CT (Saber.Leak.toomInterp r0 r1 r2 r3 r4 r5 r6) (Saber.Leak.toomInterp r0' r1' r2' r3' r4' r5' r6') := by
  unfold Saber.Leak.toomInterp
  repeat ctstep
macro_rules | `(tactic| ctstep) => `(tactic| with_reducible exact Saber.Leak.CT_toomInterp _ _ _ _ _ _ _ _ _ _ _ _ _ _)

theorem CT_toom_cook_4way (a1 : List (BitVec 16)) (a1' : List (BitVec 16)) (b1 : List (BitVec 16)) (b1' : List (BitVec 16)) (result : List (BitVec 16)) (result' : List (BitVec 16)) :
    CT (Saber.Leak.toom_cook_4way a1 b1 result) (Saber.Leak.toom_cook_4way a1' b1' result') := by
  unfold Saber.Leak.toom_cook_4way
  repeat ctstep
macro_rules | `(tactic| ctstep) => `(tactic| with_reducible exact Saber.Leak.CT_toom_cook_4way _ _ _ _ _ _)

theorem CT_poly_mul_acc (a : List (BitVec 16)) (a' : List (BitVec 16)) (b : List (BitVec 16)) (b' : List (BitVec 16)) (res : List (BitVec 16)) (res' : List (BitVec 16)) :
    CT (Saber.Leak.poly_mul_acc a b res) (Saber.Leak.poly_mul_acc a' b' res') := by
  unfold Saber.Leak.poly_mul_acc
  repeat ctstep
macro_rules | `(tactic| ctstep) => `(tactic| with_reducible exact Saber.Leak.CT_poly_mul_acc _ _ _ _ _ _)

theorem CT_load_littleendian (x : List Byte) (x' : List Byte) (off : Nat) (bytes : Nat) :
    CT (Saber.Leak.load_littleendian x off bytes) (Saber.Leak.load_littleendian x' off bytes) := by
  unfold Saber.Leak.load_littleendian
  repeat ctstep
macro_rules | `(tactic| ctstep) => `(tactic| with_reducible exact Saber.Leak.CT_load_littleendian _ _ _ _)

theorem CT_cbd (P : PSet) (s : List (BitVec 16)) (s' : List (BitVec 16)) (buf : List Byte) (buf' : List Byte) (off : Nat) :
    CT (Saber.Leak.cbd P s buf off) (Saber.Leak.cbd P s' buf' off) := by
  unfold Saber.Leak.cbd
  cases P <;> repeat ctstep
macro_rules | `(tactic| ctstep) => `(tactic| with_reducible exact Saber.Leak.CT_cbd _ _ _ _ _ _)

theorem CT_load64 (xs : List Byte) (xs' : List Byte) (off : Nat) :
    CT (Saber.Leak.load64 xs off) (Saber.Leak.load64 xs' off) := by
  unfold Saber.Leak.load64
  repeat ctstep
macro_rules | `(tactic| ctstep) => `(tactic| with_reducible exact Saber.Leak.CT_load64 _ _ _)

theorem CT_store64 (xs : List Byte) (xs' : List Byte) (off : Nat) (u : BitVec 64) (u' : BitVec 64) :
    CT (Saber.Leak.store64 xs off u) (Saber.Leak.store64 xs' off u') := by
  unfold Saber.Leak.store64
  repeat ctstep
macro_rules | `(tactic| ctstep) => `(tactic| with_reducible exact Saber.Leak.CT_store64 _ _ _ _ _)

theorem CT_KeccakF1600_StatePermute (state state' : List (BitVec 64)) :
    CT (Saber.Leak.KeccakF1600_StatePermute state) (Saber.Leak.KeccakF1600_StatePermute state') := by
  unfold Saber.Leak.KeccakF1600_StatePermute
  repeat ctstep
/-- The events of a linked permutation do not depend on the state, nor on which of two permutations is linked. -/
class PermCT (L L' : LPermute) : Prop where
  /-- see above -/
  ct : ∀ s s', CT (L.permute s) (L'.permute s')
instance : PermCT reference reference := ⟨CT_KeccakF1600_StatePermute⟩
theorem CT_permute {L L' : LPermute} [PermCT L L'] (s s' : List (BitVec 64)) : CT (L.permute s) (L'.permute s') := PermCT.ct s s'
macro_rules | `(tactic| ctstep) => `(tactic| with_reducible exact CT_permute _ _)
macro_rules | `(tactic| ctstep) => `(tactic| with_reducible exact Saber.Leak.CT_KeccakF1600_StatePermute _ _)

theorem CT_xorBlock (s : List (BitVec 64)) (s' : List (BitVec 64)) (r : Nat) (m : List Byte) (m' : List Byte) (mOff : Nat) :
    CT (Saber.Leak.xorBlock s r m mOff) (Saber.Leak.xorBlock s' r m' mOff) := by
  unfold Saber.Leak.xorBlock
  repeat ctstep
macro_rules | `(tactic| ctstep) => `(tactic| with_reducible exact Saber.Leak.CT_xorBlock _ _ _ _ _ _)

section Linked
variable {L L' : LPermute} [PermCT L L']

theorem R2_absorbLoop (s s' : List (BitVec 64)) (r : Nat) (m m' : List Byte) (mOff mlen : Nat) :
    R2 (absorbLoop (L := L) s r m mOff mlen) (absorbLoop (L := L') s' r m' mOff mlen) fun a b => a.2 = b.2 := by
  induction mlen using Nat.strongRecOn generalizing s s' mOff with
  | _ mlen ih =>
    rw [@absorbLoop.eq_def L, @absorbLoop.eq_def L']
    refine CT.bind (CT.branch _) fun _ _ => ?_
    by_cases h : r ≤ mlen ∧ 0 < r
    · rw [dif_pos h, dif_pos h]
      refine CT.bind (CT_xorBlock _ _ _ _ _ _) fun s s' => CT.bind (CT_permute _ _) fun s s' => ?_
      exact ih (mlen - r) (by omega) s s' (mOff + r)
    · rw [dif_neg h, dif_neg h]
      exact R2.pure rfl

theorem CT_keccak_absorb (s s' : List (BitVec 64)) (r : Nat) (m m' : List Byte) (mOff mlen : Nat) (p p' : Byte) :
    CT (keccak_absorb (L := L) s r m mOff mlen p) (keccak_absorb (L := L') s' r m' mOff mlen p') := by
  unfold keccak_absorb
  refine R2.bind (R2_absorbLoop _ _ _ _ _ _ _) ?_
  rintro ⟨s, a, b⟩ ⟨s', a', b'⟩ h
  obtain ⟨rfl, rfl⟩ := Prod.mk.inj h
  repeat ctstep
macro_rules | `(tactic| ctstep) => `(tactic| with_reducible exact Saber.Leak.CT_keccak_absorb _ _ _ _ _ _ _ _ _)

theorem CT_keccak_squeezeblocks (h h' : List Byte) (hOff nblocks : Nat) (s s' : List (BitVec 64)) (r : Nat) :
    CT (keccak_squeezeblocks (L := L) h hOff nblocks s r) (keccak_squeezeblocks (L := L') h' hOff nblocks s' r) := by
  unfold keccak_squeezeblocks
  refine R2.bind (R2.loop (I := fun _ a b => a.2.1 = b.2.1) ?_ _ _ _ rfl) ?_
  · rintro i ⟨h, o, s⟩ ⟨h', o', s'⟩ e
    obtain rfl : o = o' := e
    refine CT.bind (CT_permute _ _) fun s s' => CT.bind ?_ fun h h' => R2.pure rfl
    repeat ctstep
  · rintro ⟨h, o, s⟩ ⟨h', o', s'⟩ e
    exact CT.pure _ _
macro_rules | `(tactic| ctstep) => `(tactic| with_reducible exact Saber.Leak.CT_keccak_squeezeblocks _ _ _ _ _ _ _)

theorem CT_clearState  :
    CT (Saber.Leak.clearState ) (Saber.Leak.clearState ) := by
  unfold Saber.Leak.clearState
  repeat ctstep
macro_rules | `(tactic| ctstep) => `(tactic| with_reducible exact Saber.Leak.CT_clearState )

theorem CT_shake128 (output : List Byte) (output' : List Byte) (outOff : Nat) (outlen : Nat) (input : List Byte) (input' : List Byte) (inOff : Nat) (inlen : Nat) :
    CT (Saber.Leak.shake128 (L := L) output outOff outlen input inOff inlen) (Saber.Leak.shake128 (L := L') output' outOff outlen input' inOff inlen) := by
  unfold Saber.Leak.shake128
  repeat ctstep
macro_rules | `(tactic| ctstep) => `(tactic| with_reducible exact Saber.Leak.CT_shake128 _ _ _ _ _ _ _ _)

theorem CT_sha3_256 (output : List Byte) (output' : List Byte) (outOff : Nat) (input : List Byte) (input' : List Byte) (inOff : Nat) (inlen : Nat) :
    CT (Saber.Leak.sha3_256 (L := L) output outOff input inOff inlen) (Saber.Leak.sha3_256 (L := L') output' outOff input' inOff inlen) := by
  unfold Saber.Leak.sha3_256
  repeat ctstep
macro_rules | `(tactic| ctstep) => `(tactic| with_reducible exact Saber.Leak.CT_sha3_256 _ _ _ _ _ _ _)

theorem CT_sha3_512 (output : List Byte) (output' : List Byte) (outOff : Nat) (input : List Byte) (input' : List Byte) (inOff : Nat) (inlen : Nat) :
    CT (Saber.Leak.sha3_512 (L := L) output outOff input inOff inlen) (Saber.Leak.sha3_512 (L := L') output' outOff input' inOff inlen) := by
  unfold Saber.Leak.sha3_512
  repeat ctstep
macro_rules | `(tactic| ctstep) => `(tactic| with_reducible exact Saber.Leak.CT_sha3_512 _ _ _ _ _ _ _)

end Linked

theorem CT_verify (a : List Byte) (a' : List Byte) (aOff : Nat) (b : List Byte) (b' : List Byte) (bOff : Nat) (len : Nat) :
    CT (Saber.Leak.verify a aOff b bOff len) (Saber.Leak.verify a' aOff b' bOff len) := by
  unfold Saber.Leak.verify
  repeat ctstep
macro_rules | `(tactic| ctstep) => `(tactic| with_reducible exact Saber.Leak.CT_verify _ _ _ _ _ _ _)

theorem CT_cmov (r : List Byte) (r' : List Byte) (rOff : Nat) (x : List Byte) (x' : List Byte) (xOff : Nat) (len : Nat) (b : Byte) (b' : Byte) :
    CT (Saber.Leak.cmov r rOff x xOff len b) (Saber.Leak.cmov r' rOff x' xOff len b') := by
  unfold Saber.Leak.cmov
  repeat ctstep
macro_rules | `(tactic| ctstep) => `(tactic| with_reducible exact Saber.Leak.CT_cmov _ _ _ _ _ _ _ _ _)

theorem CT_MatrixVectorMul (P : PSet) (A : List (List (List (BitVec 16)))) (A' : List (List (List (BitVec 16)))) (s : List (List (BitVec 16))) (s' : List (List (BitVec 16))) (res : List (List (BitVec 16))) (res' : List (List (BitVec 16))) (transpose : Int) :
    CT (Saber.Leak.MatrixVectorMul P A s res transpose) (Saber.Leak.MatrixVectorMul P A' s' res' transpose) := by
  unfold Saber.Leak.MatrixVectorMul
  repeat ctstep
macro_rules | `(tactic| ctstep) => `(tactic| with_reducible exact Saber.Leak.CT_MatrixVectorMul _ _ _ _ _ _ _ _)

theorem CT_InnerProd (P : PSet) (b : List (List (BitVec 16))) (b' : List (List (BitVec 16))) (s : List (List (BitVec 16))) (s' : List (List (BitVec 16))) (res : List (BitVec 16)) (res' : List (BitVec 16)) :
    CT (Saber.Leak.InnerProd P b s res) (Saber.Leak.InnerProd P b' s' res') := by
  unfold Saber.Leak.InnerProd
  repeat ctstep
macro_rules | `(tactic| ctstep) => `(tactic| with_reducible exact Saber.Leak.CT_InnerProd _ _ _ _ _ _ _)

theorem CT_GenMatrix (P : PSet) (A : List (List (List (BitVec 16)))) (A' : List (List (List (BitVec 16)))) (seed : List Byte) (seed' : List Byte) (seedOff : Nat) :
    CT (Saber.Leak.GenMatrix P A seed seedOff) (Saber.Leak.GenMatrix P A' seed' seedOff) := by
  unfold Saber.Leak.GenMatrix
  repeat ctstep
macro_rules | `(tactic| ctstep) => `(tactic| with_reducible exact Saber.Leak.CT_GenMatrix _ _ _ _ _ _)

theorem CT_GenSecret (P : PSet) (s : List (List (BitVec 16))) (s' : List (List (BitVec 16))) (seed : List Byte) (seed' : List Byte) (seedOff : Nat) :
    CT (Saber.Leak.GenSecret P s seed seedOff) (Saber.Leak.GenSecret P s' seed' seedOff) := by
  unfold Saber.Leak.GenSecret
  repeat ctstep
macro_rules | `(tactic| ctstep) => `(tactic| with_reducible exact Saber.Leak.CT_GenSecret _ _ _ _ _ _)

theorem CT_roundVec (P : PSet) (b : List (List (BitVec 16))) (b' : List (List (BitVec 16))) :
    CT (Saber.Leak.roundVec P b) (Saber.Leak.roundVec P b') := by
  unfold Saber.Leak.roundVec
  repeat ctstep
macro_rules | `(tactic| ctstep) => `(tactic| with_reducible exact Saber.Leak.CT_roundVec _ _ _)

theorem CT_indcpa_kem_keypair {σ τ : Type} (P : PSet) (rb : RandomBytes σ) (rb' : RandomBytes τ) (pk : List Byte) (pk' : List Byte) (sk : List Byte) (sk' : List Byte) (st : σ) (st' : τ) :
    CT (Saber.Leak.indcpa_kem_keypair P rb pk sk st) (Saber.Leak.indcpa_kem_keypair P rb' pk' sk' st') := by
  unfold Saber.Leak.indcpa_kem_keypair
  repeat ctstep
macro_rules | `(tactic| ctstep) => `(tactic| with_reducible exact Saber.Leak.CT_indcpa_kem_keypair _ _ _ _ _ _ _ _ _)

theorem CT_encRound (P : PSet) (vp : List (BitVec 16)) (vp' : List (BitVec 16)) (mp : List (BitVec 16)) (mp' : List (BitVec 16)) :
    CT (Saber.Leak.encRound P vp mp) (Saber.Leak.encRound P vp' mp') := by
  unfold Saber.Leak.encRound
  repeat ctstep
macro_rules | `(tactic| ctstep) => `(tactic| with_reducible exact Saber.Leak.CT_encRound _ _ _ _ _)

theorem CT_indcpa_kem_enc (P : PSet) (m : List Byte) (m' : List Byte) (mOff : Nat) (seed_sp : List Byte) (seed_sp' : List Byte) (seedOff : Nat) (pk : List Byte) (pk' : List Byte) (pkOff : Nat) (ciphertext : List Byte) (ciphertext' : List Byte) :
    CT (Saber.Leak.indcpa_kem_enc P m mOff seed_sp seedOff pk pkOff ciphertext) (Saber.Leak.indcpa_kem_enc P m' mOff seed_sp' seedOff pk' pkOff ciphertext') := by
  unfold Saber.Leak.indcpa_kem_enc
  repeat ctstep
macro_rules | `(tactic| ctstep) => `(tactic| with_reducible exact Saber.Leak.CT_indcpa_kem_enc _ _ _ _ _ _ _ _ _ _ _ _)

theorem CT_decRound (P : PSet) (v : List (BitVec 16)) (v' : List (BitVec 16)) (cm : List (BitVec 16)) (cm' : List (BitVec 16)) :
    CT (Saber.Leak.decRound P v cm) (Saber.Leak.decRound P v' cm') := by
  unfold Saber.Leak.decRound
  repeat ctstep
macro_rules | `(tactic| ctstep) => `(tactic| with_reducible exact Saber.Leak.CT_decRound _ _ _ _ _)

theorem CT_indcpa_kem_dec (P : PSet) (sk : List Byte) (sk' : List Byte) (ciphertext : List Byte) (ciphertext' : List Byte) (m : List Byte) (m' : List Byte) :
    CT (Saber.Leak.indcpa_kem_dec P sk ciphertext m) (Saber.Leak.indcpa_kem_dec P sk' ciphertext' m') := by
  unfold Saber.Leak.indcpa_kem_dec
  repeat ctstep
macro_rules | `(tactic| ctstep) => `(tactic| with_reducible exact Saber.Leak.CT_indcpa_kem_dec _ _ _ _ _ _ _)

theorem CT_crypto_kem_keypair {σ τ : Type} (P : PSet) (rb : RandomBytes σ) (rb' : RandomBytes τ) (pk : List Byte) (pk' : List Byte) (sk : List Byte) (sk' : List Byte) (st : σ) (st' : τ) :
    CT (Saber.Leak.crypto_kem_keypair P rb pk sk st) (Saber.Leak.crypto_kem_keypair P rb' pk' sk' st') := by
  unfold Saber.Leak.crypto_kem_keypair
  repeat ctstep
macro_rules | `(tactic| ctstep) => `(tactic| with_reducible exact Saber.Leak.CT_crypto_kem_keypair _ _ _ _ _ _ _ _ _)

theorem CT_crypto_kem_enc {σ τ : Type} (P : PSet) (rb : RandomBytes σ) (rb' : RandomBytes τ) (c : List Byte) (c' : List Byte) (k : List Byte) (k' : List Byte) (pk : List Byte) (pk' : List Byte) (st : σ) (st' : τ) :
    CT (Saber.Leak.crypto_kem_enc P rb c k pk st) (Saber.Leak.crypto_kem_enc P rb' c' k' pk' st') := by
  unfold Saber.Leak.crypto_kem_enc
  repeat ctstep
macro_rules | `(tactic| ctstep) => `(tactic| with_reducible exact Saber.Leak.CT_crypto_kem_enc _ _ _ _ _ _ _ _ _ _ _)

theorem CT_crypto_kem_dec (P : PSet) (k : List Byte) (k' : List Byte) (c : List Byte) (c' : List Byte) (sk : List Byte) (sk' : List Byte) :
    CT (Saber.Leak.crypto_kem_dec P k c sk) (Saber.Leak.crypto_kem_dec P k' c' sk') := by
  unfold Saber.Leak.crypto_kem_dec
  repeat ctstep
macro_rules | `(tactic| ctstep) => `(tactic| with_reducible exact Saber.Leak.CT_crypto_kem_dec _ _ _ _ _ _ _)

end Saber.Leak
