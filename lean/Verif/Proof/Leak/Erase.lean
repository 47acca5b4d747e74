import Verif.Proof.Leak.Logic
/-! # Leaving out the events gives the model -/
set_option linter.unusedSectionVars false

namespace Saber.Leak

theorem E_POLT2BS_3 (bytes : List Byte) (off : Nat) (data : List (BitVec 16)) : E (Saber.Leak.POLT2BS_3 bytes off data) (Saber.POLT2BS_3 bytes off data) := by
  unfold Saber.Leak.POLT2BS_3 Saber.POLT2BS_3
  repeat estep
macro_rules | `(tactic| estep) => `(tactic| with_reducible exact Saber.Leak.E_POLT2BS_3 _ _ _)

theorem E_POLT2BS_4 (bytes : List Byte) (off : Nat) (data : List (BitVec 16)) : E (Saber.Leak.POLT2BS_4 bytes off data) (Saber.POLT2BS_4 bytes off data) := by
  unfold Saber.Leak.POLT2BS_4 Saber.POLT2BS_4
  repeat estep
macro_rules | `(tactic| estep) => `(tactic| with_reducible exact Saber.Leak.E_POLT2BS_4 _ _ _)

theorem E_POLT2BS_6 (bytes : List Byte) (off : Nat) (data : List (BitVec 16)) : E (Saber.Leak.POLT2BS_6 bytes off data) (Saber.POLT2BS_6 bytes off data) := by
  unfold Saber.Leak.POLT2BS_6 Saber.POLT2BS_6
  repeat estep
macro_rules | `(tactic| estep) => `(tactic| with_reducible exact Saber.Leak.E_POLT2BS_6 _ _ _)

theorem E_BS2POLT_3 (bytes : List Byte) (off : Nat) (data : List (BitVec 16)) : E (Saber.Leak.BS2POLT_3 bytes off data) (Saber.BS2POLT_3 bytes off data) := by
  unfold Saber.Leak.BS2POLT_3 Saber.BS2POLT_3
  repeat estep
macro_rules | `(tactic| estep) => `(tactic| with_reducible exact Saber.Leak.E_BS2POLT_3 _ _ _)

theorem E_BS2POLT_4 (bytes : List Byte) (off : Nat) (data : List (BitVec 16)) : E (Saber.Leak.BS2POLT_4 bytes off data) (Saber.BS2POLT_4 bytes off data) := by
  unfold Saber.Leak.BS2POLT_4 Saber.BS2POLT_4
  repeat estep
macro_rules | `(tactic| estep) => `(tactic| with_reducible exact Saber.Leak.E_BS2POLT_4 _ _ _)

theorem E_BS2POLT_6 (bytes : List Byte) (off : Nat) (data : List (BitVec 16)) : E (Saber.Leak.BS2POLT_6 bytes off data) (Saber.BS2POLT_6 bytes off data) := by
  unfold Saber.Leak.BS2POLT_6 Saber.BS2POLT_6
  repeat estep
macro_rules | `(tactic| estep) => `(tactic| with_reducible exact Saber.Leak.E_BS2POLT_6 _ _ _)

theorem E_POLq2BS (bytes : List Byte) (off : Nat) (data : List (BitVec 16)) : E (Saber.Leak.POLq2BS bytes off data) (Saber.POLq2BS bytes off data) := by
  unfold Saber.Leak.POLq2BS Saber.POLq2BS
  repeat estep
macro_rules | `(tactic| estep) => `(tactic| with_reducible exact Saber.Leak.E_POLq2BS _ _ _)

theorem E_BS2POLq (bytes : List Byte) (off : Nat) (data : List (BitVec 16)) : E (Saber.Leak.BS2POLq bytes off data) (Saber.BS2POLq bytes off data) := by
  unfold Saber.Leak.BS2POLq Saber.BS2POLq
  repeat estep
macro_rules | `(tactic| estep) => `(tactic| with_reducible exact Saber.Leak.E_BS2POLq _ _ _)

theorem E_POLp2BS (bytes : List Byte) (off : Nat) (data : List (BitVec 16)) : E (Saber.Leak.POLp2BS bytes off data) (Saber.POLp2BS bytes off data) := by
  unfold Saber.Leak.POLp2BS Saber.POLp2BS
  repeat estep
macro_rules | `(tactic| estep) => `(tactic| with_reducible exact Saber.Leak.E_POLp2BS _ _ _)

theorem E_BS2POLp (bytes : List Byte) (off : Nat) (data : List (BitVec 16)) : E (Saber.Leak.BS2POLp bytes off data) (Saber.BS2POLp bytes off data) := by
  unfold Saber.Leak.BS2POLp Saber.BS2POLp
  repeat estep
macro_rules | `(tactic| estep) => `(tactic| with_reducible exact Saber.Leak.E_BS2POLp _ _ _)

theorem E_POLT2BS (P : PSet) (bytes : List Byte) (off : Nat) (data : List (BitVec 16)) : E (Saber.Leak.POLT2BS P bytes off data) (Saber.POLT2BS P bytes off data) := by
  unfold Saber.Leak.POLT2BS Saber.POLT2BS
  cases P <;> repeat estep
macro_rules | `(tactic| estep) => `(tactic| with_reducible exact Saber.Leak.E_POLT2BS _ _ _ _)

theorem E_BS2POLT (P : PSet) (bytes : List Byte) (off : Nat) (data : List (BitVec 16)) : E (Saber.Leak.BS2POLT P bytes off data) (Saber.BS2POLT P bytes off data) := by
  unfold Saber.Leak.BS2POLT Saber.BS2POLT
  cases P <;> repeat estep
macro_rules | `(tactic| estep) => `(tactic| with_reducible exact Saber.Leak.E_BS2POLT _ _ _ _)

theorem E_POLVECq2BS (P : PSet) (bytes : List Byte) (off : Nat) (data : List (List (BitVec 16))) : E (Saber.Leak.POLVECq2BS P bytes off data) (Saber.POLVECq2BS P bytes off data) := by
  unfold Saber.Leak.POLVECq2BS Saber.POLVECq2BS
  repeat estep
macro_rules | `(tactic| estep) => `(tactic| with_reducible exact Saber.Leak.E_POLVECq2BS _ _ _ _)

theorem E_BS2POLVECq (P : PSet) (bytes : List Byte) (off : Nat) (data : List (List (BitVec 16))) : E (Saber.Leak.BS2POLVECq P bytes off data) (Saber.BS2POLVECq P bytes off data) := by
  unfold Saber.Leak.BS2POLVECq Saber.BS2POLVECq
  repeat estep
macro_rules | `(tactic| estep) => `(tactic| with_reducible exact Saber.Leak.E_BS2POLVECq _ _ _ _)

theorem E_POLVECp2BS (P : PSet) (bytes : List Byte) (off : Nat) (data : List (List (BitVec 16))) : E (Saber.Leak.POLVECp2BS P bytes off data) (Saber.POLVECp2BS P bytes off data) := by
  unfold Saber.Leak.POLVECp2BS Saber.POLVECp2BS
  repeat estep
macro_rules | `(tactic| estep) => `(tactic| with_reducible exact Saber.Leak.E_POLVECp2BS _ _ _ _)

theorem E_BS2POLVECp (P : PSet) (bytes : List Byte) (off : Nat) (data : List (List (BitVec 16))) : E (Saber.Leak.BS2POLVECp P bytes off data) (Saber.BS2POLVECp P bytes off data) := by
  unfold Saber.Leak.BS2POLVECp Saber.BS2POLVECp
  repeat estep
macro_rules | `(tactic| estep) => `(tactic| with_reducible exact Saber.Leak.E_BS2POLVECp _ _ _ _)

theorem E_BS2POLmsg (bytes : List Byte) (off : Nat) (data : List (BitVec 16)) : E (Saber.Leak.BS2POLmsg bytes off data) (Saber.BS2POLmsg bytes off data) := by
  unfold Saber.Leak.BS2POLmsg Saber.BS2POLmsg
  repeat estep
macro_rules | `(tactic| estep) => `(tactic| with_reducible exact Saber.Leak.E_BS2POLmsg _ _ _)

theorem E_POLmsg2BS (bytes : List Byte) (off : Nat) (data : List (BitVec 16)) : E (Saber.Leak.POLmsg2BS bytes off data) (Saber.POLmsg2BS bytes off data) := by
  unfold Saber.Leak.POLmsg2BS Saber.POLmsg2BS
  repeat estep
macro_rules | `(tactic| estep) => `(tactic| with_reducible exact Saber.Leak.E_POLmsg2BS _ _ _)

theorem E_karaInner (b : List (BitVec 16)) (i : Nat) (acc1 : BitVec 16) (acc2 : BitVec 16) (acc3 : BitVec 16) (acc4 : BitVec 16) (j : Nat) (s : KS) : E (Saber.Leak.karaInner b i acc1 acc2 acc3 acc4 j s) (Saber.karaInner b i acc1 acc2 acc3 acc4 j s) := by
  unfold Saber.Leak.karaInner Saber.karaInner
  repeat estep
macro_rules | `(tactic| estep) => `(tactic| with_reducible exact Saber.Leak.E_karaInner _ _ _ _ _ _ _ _)

theorem E_karaMul (a : List (BitVec 16)) (b : List (BitVec 16)) (s : KS) : E (Saber.Leak.karaMul a b s) (Saber.karaMul a b s) := by
  unfold Saber.Leak.karaMul Saber.karaMul
  repeat estep
macro_rules | `(tactic| estep) => `(tactic| with_reducible exact Saber.Leak.E_karaMul _ _ _)

theorem E_karaStage1 (i : Nat) (s : KS) : E (Saber.Leak.karaStage1 i s) (Saber.karaStage1 i s) := by
  unfold Saber.Leak.karaStage1 Saber.karaStage1
  repeat estep
macro_rules | `(tactic| estep) => `(tactic| with_reducible exact Saber.Leak.E_karaStage1 _ _)

theorem E_karaStage2 (i : Nat) (s : KS) : E (Saber.Leak.karaStage2 i s) (Saber.karaStage2 i s) := by
  unfold Saber.Leak.karaStage2 Saber.karaStage2
  repeat estep
macro_rules | `(tactic| estep) => `(tactic| with_reducible exact Saber.Leak.E_karaStage2 _ _)

theorem E_karaStage3 (i : Nat) (s : KS) : E (Saber.Leak.karaStage3 i s) (Saber.karaStage3 i s) := by
  unfold Saber.Leak.karaStage3 Saber.karaStage3
  repeat estep
macro_rules | `(tactic| estep) => `(tactic| with_reducible exact Saber.Leak.E_karaStage3 _ _)

theorem E_karaStage4 (i : Nat) (s : KS) : E (Saber.Leak.karaStage4 i s) (Saber.karaStage4 i s) := by
  unfold Saber.Leak.karaStage4 Saber.karaStage4
  repeat estep
macro_rules | `(tactic| estep) => `(tactic| with_reducible exact Saber.Leak.E_karaStage4 _ _)

theorem E_karatsuba_simple (a_1 : List (BitVec 16)) (b_1 : List (BitVec 16)) (result_final : List (BitVec 16)) : E (Saber.Leak.karatsuba_simple a_1 b_1 result_final) (Saber.karatsuba_simple a_1 b_1 result_final) := by
  unfold Saber.Leak.karatsuba_simple Saber.karatsuba_simple
  repeat estep
macro_rules | `(tactic| estep) => `(tactic| with_reducible exact Saber.Leak.E_karatsuba_simple _ _ _)

theorem E_toomEval (r0 : BitVec 16) (r1 : BitVec 16) (r2 : BitVec 16) (r3 : BitVec 16) : E (Saber.Leak.toomEval r0 r1 r2 r3) (Saber.toomEval r0 r1 r2 r3) := by
  unfold Saber.Leak.toomEval Saber.toomEval
  repeat estep
macro_rules | `(tactic| estep) => `(tactic| with_reducible exact Saber.Leak.E_toomEval _ _ _ _)

theorem E_toomEvalLoop (a1 : List (BitVec 16)) (s : Ev (List (BitVec 16))) : E (Saber.Leak.toomEvalLoop a1 s) (Saber.toomEvalLoop a1 s) := by
  unfold Saber.Leak.toomEvalLoop Saber.toomEvalLoop
  repeat estep
macro_rules | `(tactic| estep) => `(tactic| with_reducible exact Saber.Leak.E_toomEvalLoop _ _)

theorem E_toomInterp (r0 : BitVec 16) (r1 : BitVec 16) (r2 : BitVec 16) (r3 : BitVec 16) (r4 : BitVec 16) (r5 : BitVec 16) (r6 : BitVec 16) : E (Saber.Leak.toomInterp r0 r1 r2 r3 r4 r5 r6) (Saber.toomInterp r0 r1 r2 r3 r4 r5 r6) := by
  unfold Saber.Leak.toomInterp Saber.toomInterp
  repeat estep
macro_rules | `(tactic| estep) => `(tactic| with_reducible exact Saber.Leak.E_toomInterp _ _ _ _ _ _ _)

theorem E_toom_cook_4way (a1 : List (BitVec 16)) (b1 : List (BitVec 16)) (result : List (BitVec 16)) : E (Saber.Leak.toom_cook_4way a1 b1 result) (Saber.toom_cook_4way a1 b1 result) := by
  unfold Saber.Leak.toom_cook_4way Saber.toom_cook_4way
  repeat estep
macro_rules | `(tactic| estep) => `(tactic| with_reducible exact Saber.Leak.E_toom_cook_4way _ _ _)

theorem E_poly_mul_acc (a : List (BitVec 16)) (b : List (BitVec 16)) (res : List (BitVec 16)) : E (Saber.Leak.poly_mul_acc a b res) (Saber.poly_mul_acc a b res) := by
  unfold Saber.Leak.poly_mul_acc Saber.poly_mul_acc
  repeat estep
macro_rules | `(tactic| estep) => `(tactic| with_reducible exact Saber.Leak.E_poly_mul_acc _ _ _)

theorem E_load_littleendian (x : List Byte) (off : Nat) (bytes : Nat) : E (Saber.Leak.load_littleendian x off bytes) (Saber.load_littleendian x off bytes) := by
  unfold Saber.Leak.load_littleendian Saber.load_littleendian
  repeat estep
macro_rules | `(tactic| estep) => `(tactic| with_reducible exact Saber.Leak.E_load_littleendian _ _ _)

theorem E_cbd (P : PSet) (s : List (BitVec 16)) (buf : List Byte) (off : Nat) : E (Saber.Leak.cbd P s buf off) (Saber.cbd P s buf off) := by
  unfold Saber.Leak.cbd Saber.cbd
  cases P <;> repeat estep
macro_rules | `(tactic| estep) => `(tactic| with_reducible exact Saber.Leak.E_cbd _ _ _ _)

theorem E_load64 (xs : List Byte) (off : Nat) : E (Saber.Leak.load64 xs off) (Saber.load64 xs off) := by
  unfold Saber.Leak.load64 Saber.load64
  repeat estep
macro_rules | `(tactic| estep) => `(tactic| with_reducible exact Saber.Leak.E_load64 _ _)

theorem E_store64 (xs : List Byte) (off : Nat) (u : BitVec 64) : E (Saber.Leak.store64 xs off u) (Saber.store64 xs off u) := by
  unfold Saber.Leak.store64 Saber.store64
  repeat estep
macro_rules | `(tactic| estep) => `(tactic| with_reducible exact Saber.Leak.E_store64 _ _ _)

theorem E_KeccakF1600_StatePermute (state : List (BitVec 64)) : E (Leak.KeccakF1600_StatePermute state) (Saber.KeccakF1600_StatePermute state) := by
  unfold Leak.KeccakF1600_StatePermute Saber.KeccakF1600_StatePermute
  repeat estep
/-- Leaving out the events of the linked permutation gives the linked permutation of the model. -/
class Erases [LPermute] [StatePermute] : Prop where
  /-- see above -/
  erase : ∀ s, E (LPermute.permute s) (StatePermute.permute s)
instance : Erases := ⟨E_KeccakF1600_StatePermute⟩
theorem E_permute [LPermute] [StatePermute] [Erases] (state : List (BitVec 64)) : E (LPermute.permute state) (StatePermute.permute state) :=
  Erases.erase state
macro_rules | `(tactic| estep) => `(tactic| with_reducible exact E_permute _)
macro_rules | `(tactic| estep) => `(tactic| with_reducible exact Saber.Leak.E_KeccakF1600_StatePermute _)

theorem E_xorBlock (s : List (BitVec 64)) (r : Nat) (m : List Byte) (mOff : Nat) : E (Saber.Leak.xorBlock s r m mOff) (Saber.xorBlock s r m mOff) := by
  unfold Saber.Leak.xorBlock Saber.xorBlock
  repeat estep
macro_rules | `(tactic| estep) => `(tactic| with_reducible exact Saber.Leak.E_xorBlock _ _ _ _)

section Linked
variable [LPermute] [StatePermute] [Erases]

theorem E_absorbLoop (s : List (BitVec 64)) (r : Nat) (m : List Byte) (mOff mlen : Nat) :
    E (Leak.absorbLoop s r m mOff mlen) (Saber.absorbLoop s r m mOff mlen) := by
  induction mlen using Nat.strongRecOn generalizing s mOff with
  | _ mlen ih =>
   by_cases h : r ≤ mlen ∧ 0 < r
   · rw [Leak.absorbLoop, Saber.absorbLoop, dif_pos h, dif_pos h]
     refine E.branch _ ?_
     refine E.bind ?_ fun s' => E.bind ?_ fun s'' => ih (mlen - r) (by omega) s'' (mOff + r)
     all_goals estep
   · rw [Leak.absorbLoop, Saber.absorbLoop, dif_neg h, dif_neg h]
     exact E.branch _ (E.pure _)
macro_rules | `(tactic| estep) => `(tactic| with_reducible exact Saber.Leak.E_absorbLoop _ _ _ _ _)

theorem E_keccak_absorb (s : List (BitVec 64)) (r : Nat) (m : List Byte) (mOff : Nat) (mlen : Nat) (p : Byte) : E (Saber.Leak.keccak_absorb s r m mOff mlen p) (Saber.keccak_absorb s r m mOff mlen p) := by
  unfold Saber.Leak.keccak_absorb Saber.keccak_absorb
  repeat estep
macro_rules | `(tactic| estep) => `(tactic| with_reducible exact Saber.Leak.E_keccak_absorb _ _ _ _ _ _)

theorem E_keccak_squeezeblocks (h : List Byte) (hOff : Nat) (nblocks : Nat) (s : List (BitVec 64)) (r : Nat) : E (Saber.Leak.keccak_squeezeblocks h hOff nblocks s r) (Saber.keccak_squeezeblocks h hOff nblocks s r) := by
  unfold Saber.Leak.keccak_squeezeblocks Saber.keccak_squeezeblocks
  repeat estep
macro_rules | `(tactic| estep) => `(tactic| with_reducible exact Saber.Leak.E_keccak_squeezeblocks _ _ _ _ _)

theorem E_clearState  : E (Saber.Leak.clearState ) (Saber.clearState ) := by
  unfold Saber.Leak.clearState Saber.clearState
  repeat estep
macro_rules | `(tactic| estep) => `(tactic| with_reducible exact Saber.Leak.E_clearState )

theorem E_shake128 (output : List Byte) (outOff : Nat) (outlen : Nat) (input : List Byte) (inOff : Nat) (inlen : Nat) : E (Saber.Leak.shake128 output outOff outlen input inOff inlen) (Saber.shake128 output outOff outlen input inOff inlen) := by
  unfold Saber.Leak.shake128 Saber.shake128
  repeat estep
macro_rules | `(tactic| estep) => `(tactic| with_reducible exact Saber.Leak.E_shake128 _ _ _ _ _ _)

theorem E_sha3_256 (output : List Byte) (outOff : Nat) (input : List Byte) (inOff : Nat) (inlen : Nat) : E (Saber.Leak.sha3_256 output outOff input inOff inlen) (Saber.sha3_256 output outOff input inOff inlen) := by
  unfold Saber.Leak.sha3_256 Saber.sha3_256
  repeat estep
macro_rules | `(tactic| estep) => `(tactic| with_reducible exact Saber.Leak.E_sha3_256 _ _ _ _ _)

theorem E_sha3_512 (output : List Byte) (outOff : Nat) (input : List Byte) (inOff : Nat) (inlen : Nat) : E (Saber.Leak.sha3_512 output outOff input inOff inlen) (Saber.sha3_512 output outOff input inOff inlen) := by
  unfold Saber.Leak.sha3_512 Saber.sha3_512
  repeat estep
macro_rules | `(tactic| estep) => `(tactic| with_reducible exact Saber.Leak.E_sha3_512 _ _ _ _ _)

end Linked

theorem E_verify (a : List Byte) (aOff : Nat) (b : List Byte) (bOff : Nat) (len : Nat) : E (Saber.Leak.verify a aOff b bOff len) (Saber.verify a aOff b bOff len) := by
  unfold Saber.Leak.verify Saber.verify
  repeat estep
macro_rules | `(tactic| estep) => `(tactic| with_reducible exact Saber.Leak.E_verify _ _ _ _ _)

theorem E_cmov (r : List Byte) (rOff : Nat) (x : List Byte) (xOff : Nat) (len : Nat) (b : Byte) : E (Saber.Leak.cmov r rOff x xOff len b) (Saber.cmov r rOff x xOff len b) := by
  unfold Saber.Leak.cmov Saber.cmov
  repeat estep
macro_rules | `(tactic| estep) => `(tactic| with_reducible exact Saber.Leak.E_cmov _ _ _ _ _ _)

theorem E_MatrixVectorMul (P : PSet) (A : List (List (List (BitVec 16)))) (s : List (List (BitVec 16))) (res : List (List (BitVec 16))) (transpose : Int) : E (Saber.Leak.MatrixVectorMul P A s res transpose) (Saber.MatrixVectorMul P A s res transpose) := by
  unfold Saber.Leak.MatrixVectorMul Saber.MatrixVectorMul
  repeat estep
macro_rules | `(tactic| estep) => `(tactic| with_reducible exact Saber.Leak.E_MatrixVectorMul _ _ _ _ _)

theorem E_InnerProd (P : PSet) (b : List (List (BitVec 16))) (s : List (List (BitVec 16))) (res : List (BitVec 16)) : E (Saber.Leak.InnerProd P b s res) (Saber.InnerProd P b s res) := by
  unfold Saber.Leak.InnerProd Saber.InnerProd
  repeat estep
macro_rules | `(tactic| estep) => `(tactic| with_reducible exact Saber.Leak.E_InnerProd _ _ _ _)

theorem E_GenMatrix (P : PSet) (A : List (List (List (BitVec 16)))) (seed : List Byte) (seedOff : Nat) : E (Saber.Leak.GenMatrix P A seed seedOff) (Saber.GenMatrix P A seed seedOff) := by
  unfold Saber.Leak.GenMatrix Saber.GenMatrix
  repeat estep
macro_rules | `(tactic| estep) => `(tactic| with_reducible exact Saber.Leak.E_GenMatrix _ _ _ _)

theorem E_GenSecret (P : PSet) (s : List (List (BitVec 16))) (seed : List Byte) (seedOff : Nat) : E (Saber.Leak.GenSecret P s seed seedOff) (Saber.GenSecret P s seed seedOff) := by
  unfold Saber.Leak.GenSecret Saber.GenSecret
  repeat estep
macro_rules | `(tactic| estep) => `(tactic| with_reducible exact Saber.Leak.E_GenSecret _ _ _ _)

theorem E_roundVec (P : PSet) (b : List (List (BitVec 16))) : E (Saber.Leak.roundVec P b) (Saber.roundVec P b) := by
  unfold Saber.Leak.roundVec Saber.roundVec
  repeat estep
macro_rules | `(tactic| estep) => `(tactic| with_reducible exact Saber.Leak.E_roundVec _ _)

theorem E_indcpa_kem_keypair {σ : Type} (P : PSet) (rb : RandomBytes σ) (pk : List Byte) (sk : List Byte) (st : σ) : E (Saber.Leak.indcpa_kem_keypair P rb pk sk st) (Saber.indcpa_kem_keypair P rb pk sk st) := by
  unfold Saber.Leak.indcpa_kem_keypair Saber.indcpa_kem_keypair
  repeat estep
macro_rules | `(tactic| estep) => `(tactic| with_reducible exact Saber.Leak.E_indcpa_kem_keypair _ _ _ _ _)

theorem E_encRound (P : PSet) (vp : List (BitVec 16)) (mp : List (BitVec 16)) : E (Saber.Leak.encRound P vp mp) (Saber.encRound P vp mp) := by
  unfold Saber.Leak.encRound Saber.encRound
  repeat estep
macro_rules | `(tactic| estep) => `(tactic| with_reducible exact Saber.Leak.E_encRound _ _ _)

theorem E_indcpa_kem_enc (P : PSet) (m : List Byte) (mOff : Nat) (seed_sp : List Byte) (seedOff : Nat) (pk : List Byte) (pkOff : Nat) (ciphertext : List Byte) : E (Saber.Leak.indcpa_kem_enc P m mOff seed_sp seedOff pk pkOff ciphertext) (Saber.indcpa_kem_enc P m mOff seed_sp seedOff pk pkOff ciphertext) := by
  unfold Saber.Leak.indcpa_kem_enc Saber.indcpa_kem_enc
  repeat estep
macro_rules | `(tactic| estep) => `(tactic| with_reducible exact Saber.Leak.E_indcpa_kem_enc _ _ _ _ _ _ _ _)

theorem E_decRound (P : PSet) (v : List (BitVec 16)) (cm : List (BitVec 16)) : E (Saber.Leak.decRound P v cm) (Saber.decRound P v cm) := by
  unfold Saber.Leak.decRound Saber.decRound
  repeat estep
macro_rules | `(tactic| estep) => `(tactic| with_reducible exact Saber.Leak.E_decRound _ _ _)

theorem E_indcpa_kem_dec (P : PSet) (sk : List Byte) (ciphertext : List Byte) (m : List Byte) : E (Saber.Leak.indcpa_kem_dec P sk ciphertext m) (Saber.indcpa_kem_dec P sk ciphertext m) := by
  unfold Saber.Leak.indcpa_kem_dec Saber.indcpa_kem_dec
  repeat estep
macro_rules | `(tactic| estep) => `(tactic| with_reducible exact Saber.Leak.E_indcpa_kem_dec _ _ _ _)

theorem E_crypto_kem_keypair {σ : Type} (P : PSet) (rb : RandomBytes σ) (pk : List Byte) (sk : List Byte) (st : σ) : E (Saber.Leak.crypto_kem_keypair P rb pk sk st) (Saber.crypto_kem_keypair P rb pk sk st) := by
  unfold Saber.Leak.crypto_kem_keypair Saber.crypto_kem_keypair
  repeat estep
macro_rules | `(tactic| estep) => `(tactic| with_reducible exact Saber.Leak.E_crypto_kem_keypair _ _ _ _ _)

theorem E_crypto_kem_enc {σ : Type} (P : PSet) (rb : RandomBytes σ) (c : List Byte) (k : List Byte) (pk : List Byte) (st : σ) : E (Saber.Leak.crypto_kem_enc P rb c k pk st) (Saber.crypto_kem_enc P rb c k pk st) := by
  unfold Saber.Leak.crypto_kem_enc Saber.crypto_kem_enc
  repeat estep
macro_rules | `(tactic| estep) => `(tactic| with_reducible exact Saber.Leak.E_crypto_kem_enc _ _ _ _ _ _)

theorem E_crypto_kem_dec (P : PSet) (k : List Byte) (c : List Byte) (sk : List Byte) : E (Saber.Leak.crypto_kem_dec P k c sk) (Saber.crypto_kem_dec P k c sk) := by
  unfold Saber.Leak.crypto_kem_dec Saber.crypto_kem_dec
  repeat estep
macro_rules | `(tactic| estep) => `(tactic| with_reducible exact Saber.Leak.E_crypto_kem_dec _ _ _ _)

end Saber.Leak
