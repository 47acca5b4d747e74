import Verif.Model.Leak.M0
import Verif.Proof.Leak.ConstTime
/-! # Cortex-M0: the events do not depend on the data -/
set_option linter.unusedSectionVars false

namespace Saber.Leak.M0
open Saber.M0

theorem CT_zeroState (s : List (BitVec 64)) (s' : List (BitVec 64)) :
    CT (Saber.Leak.M0.zeroState s) (Saber.Leak.M0.zeroState s') := by
  unfold Saber.Leak.M0.zeroState
  repeat ctstep
macro_rules | `(tactic| ctstep) => `(tactic| with_reducible exact Saber.Leak.M0.CT_zeroState _ _)

section Linked
variable {L L' : LPermute} [PermCT L L']

theorem CT_keccak_absorb (s : List (BitVec 64)) (s' : List (BitVec 64)) (r : Nat) (m : List Byte) (m' : List Byte) (mOff : Nat) (mlen : Nat) (p : Byte) (p' : Byte) :
    CT (Saber.Leak.M0.keccak_absorb (L := L) s r m mOff mlen p) (Saber.Leak.M0.keccak_absorb (L := L') s' r m' mOff mlen p') := by
  unfold Saber.Leak.M0.keccak_absorb
  repeat ctstep
macro_rules | `(tactic| ctstep) => `(tactic| with_reducible exact Saber.Leak.M0.CT_keccak_absorb _ _ _ _ _ _ _ _ _)

theorem CT_squeezeOut (r : Nat) (output : List Byte) (output' : List Byte) (outOff : Nat) (outlen : Nat) (s : List (BitVec 64)) (s' : List (BitVec 64)) :
    CT (Saber.Leak.M0.squeezeOut (L := L) r output outOff outlen s) (Saber.Leak.M0.squeezeOut (L := L') r output' outOff outlen s') := by
  unfold Saber.Leak.M0.squeezeOut
  repeat ctstep
macro_rules | `(tactic| ctstep) => `(tactic| with_reducible exact Saber.Leak.M0.CT_squeezeOut _ _ _ _ _ _ _)

theorem CT_shake128 (output : List Byte) (output' : List Byte) (outOff : Nat) (outlen : Nat) (input : List Byte) (input' : List Byte) (inOff : Nat) (inlen : Nat) :
    CT (Saber.Leak.M0.shake128 (L := L) output outOff outlen input inOff inlen) (Saber.Leak.M0.shake128 (L := L') output' outOff outlen input' inOff inlen) := by
  unfold Saber.Leak.M0.shake128
  repeat ctstep
macro_rules | `(tactic| ctstep) => `(tactic| with_reducible exact Saber.Leak.M0.CT_shake128 _ _ _ _ _ _ _ _)

theorem CT_sha3_256 (output : List Byte) (output' : List Byte) (outOff : Nat) (input : List Byte) (input' : List Byte) (inOff : Nat) (inlen : Nat) :
    CT (Saber.Leak.M0.sha3_256 (L := L) output outOff input inOff inlen) (Saber.Leak.M0.sha3_256 (L := L') output' outOff input' inOff inlen) := by
  unfold Saber.Leak.M0.sha3_256
  repeat ctstep
macro_rules | `(tactic| ctstep) => `(tactic| with_reducible exact Saber.Leak.M0.CT_sha3_256 _ _ _ _ _ _ _)

theorem CT_sha3_512 (output : List Byte) (output' : List Byte) (outOff : Nat) (input : List Byte) (input' : List Byte) (inOff : Nat) (inlen : Nat) :
    CT (Saber.Leak.M0.sha3_512 (L := L) output outOff input inOff inlen) (Saber.Leak.M0.sha3_512 (L := L') output' outOff input' inOff inlen) := by
  unfold Saber.Leak.M0.sha3_512
  repeat ctstep
macro_rules | `(tactic| ctstep) => `(tactic| with_reducible exact Saber.Leak.M0.CT_sha3_512 _ _ _ _ _ _ _)

theorem CT_cshake_simple_absorb (r : Nat) (b1 : Byte) (b1' : Byte) (s : List (BitVec 64)) (s' : List (BitVec 64)) (cstm : BitVec 16) (cstm' : BitVec 16) (input : List Byte) (input' : List Byte) (inOff : Nat) (inlen : Nat) :
    CT (Saber.Leak.M0.cshake_simple_absorb (L := L) r b1 s cstm input inOff inlen) (Saber.Leak.M0.cshake_simple_absorb (L := L') r b1' s' cstm' input' inOff inlen) := by
  unfold Saber.Leak.M0.cshake_simple_absorb
  repeat ctstep
macro_rules | `(tactic| ctstep) => `(tactic| with_reducible exact Saber.Leak.M0.CT_cshake_simple_absorb _ _ _ _ _ _ _ _ _ _ _)

theorem CT_cshake128_simple (output : List Byte) (output' : List Byte) (outOff : Nat) (outlen : Nat) (cstm : BitVec 16) (cstm' : BitVec 16) (input : List Byte) (input' : List Byte) (inOff : Nat) (inlen : Nat) :
    CT (Saber.Leak.M0.cshake128_simple (L := L) output outOff outlen cstm input inOff inlen) (Saber.Leak.M0.cshake128_simple (L := L') output' outOff outlen cstm' input' inOff inlen) := by
  unfold Saber.Leak.M0.cshake128_simple
  repeat ctstep
macro_rules | `(tactic| ctstep) => `(tactic| with_reducible exact Saber.Leak.M0.CT_cshake128_simple _ _ _ _ _ _ _ _ _ _)

theorem CT_cshake256_simple (output : List Byte) (output' : List Byte) (outOff : Nat) (outlen : Nat) (cstm : BitVec 16) (cstm' : BitVec 16) (input : List Byte) (input' : List Byte) (inOff : Nat) (inlen : Nat) :
    CT (Saber.Leak.M0.cshake256_simple (L := L) output outOff outlen cstm input inOff inlen) (Saber.Leak.M0.cshake256_simple (L := L') output' outOff outlen cstm' input' inOff inlen) := by
  unfold Saber.Leak.M0.cshake256_simple
  repeat ctstep
macro_rules | `(tactic| ctstep) => `(tactic| with_reducible exact Saber.Leak.M0.CT_cshake256_simple _ _ _ _ _ _ _ _ _ _)

theorem CT_shake256 (output : List Byte) (output' : List Byte) (outOff : Nat) (outlen : Nat) (input : List Byte) (input' : List Byte) (inOff : Nat) (inlen : Nat) :
    CT (Saber.Leak.M0.shake256 (L := L) output outOff outlen input inOff inlen) (Saber.Leak.M0.shake256 (L := L') output' outOff outlen input' inOff inlen) := by
  unfold Saber.Leak.M0.shake256
  repeat ctstep
macro_rules | `(tactic| ctstep) => `(tactic| with_reducible exact Saber.Leak.M0.CT_shake256 _ _ _ _ _ _ _ _)

end Linked

theorem CT_SABER_pack_3bit (bytes : List Byte) (bytes' : List Byte) (off : Nat) (data : List (BitVec 16)) (data' : List (BitVec 16)) :
    CT (Saber.Leak.M0.SABER_pack_3bit bytes off data) (Saber.Leak.M0.SABER_pack_3bit bytes' off data') := by
  unfold Saber.Leak.M0.SABER_pack_3bit
  repeat ctstep
macro_rules | `(tactic| ctstep) => `(tactic| with_reducible exact Saber.Leak.M0.CT_SABER_pack_3bit _ _ _ _ _)

theorem CT_SABER_un_pack3bit (bytes : List Byte) (bytes' : List Byte) (off : Nat) (data : List (BitVec 16)) (data' : List (BitVec 16)) :
    CT (Saber.Leak.M0.SABER_un_pack3bit bytes off data) (Saber.Leak.M0.SABER_un_pack3bit bytes' off data') := by
  unfold Saber.Leak.M0.SABER_un_pack3bit
  repeat ctstep
macro_rules | `(tactic| ctstep) => `(tactic| with_reducible exact Saber.Leak.M0.CT_SABER_un_pack3bit _ _ _ _ _)

theorem CT_SABER_pack_4bit (bytes : List Byte) (bytes' : List Byte) (off : Nat) (data : List (BitVec 16)) (data' : List (BitVec 16)) :
    CT (Saber.Leak.M0.SABER_pack_4bit bytes off data) (Saber.Leak.M0.SABER_pack_4bit bytes' off data') := by
  unfold Saber.Leak.M0.SABER_pack_4bit
  repeat ctstep
macro_rules | `(tactic| ctstep) => `(tactic| with_reducible exact Saber.Leak.M0.CT_SABER_pack_4bit _ _ _ _ _)

theorem CT_SABER_un_pack4bit (bytes : List Byte) (bytes' : List Byte) (off : Nat) (data : List (BitVec 16)) (data' : List (BitVec 16)) :
    CT (Saber.Leak.M0.SABER_un_pack4bit bytes off data) (Saber.Leak.M0.SABER_un_pack4bit bytes' off data') := by
  unfold Saber.Leak.M0.SABER_un_pack4bit
  repeat ctstep
macro_rules | `(tactic| ctstep) => `(tactic| with_reducible exact Saber.Leak.M0.CT_SABER_un_pack4bit _ _ _ _ _)

theorem CT_SABER_pack_6bit (bytes : List Byte) (bytes' : List Byte) (off : Nat) (data : List (BitVec 16)) (data' : List (BitVec 16)) :
    CT (Saber.Leak.M0.SABER_pack_6bit bytes off data) (Saber.Leak.M0.SABER_pack_6bit bytes' off data') := by
  unfold Saber.Leak.M0.SABER_pack_6bit
  repeat ctstep
macro_rules | `(tactic| ctstep) => `(tactic| with_reducible exact Saber.Leak.M0.CT_SABER_pack_6bit _ _ _ _ _)

theorem CT_SABER_un_pack6bit (bytes : List Byte) (bytes' : List Byte) (off : Nat) (data : List (BitVec 16)) (data' : List (BitVec 16)) :
    CT (Saber.Leak.M0.SABER_un_pack6bit bytes off data) (Saber.Leak.M0.SABER_un_pack6bit bytes' off data') := by
  unfold Saber.Leak.M0.SABER_un_pack6bit
  repeat ctstep
macro_rules | `(tactic| ctstep) => `(tactic| with_reducible exact Saber.Leak.M0.CT_SABER_un_pack6bit _ _ _ _ _)

theorem CT_rowp2BS (bytes : List Byte) (bytes' : List Byte) (off : Nat) (data : List (BitVec 16)) (data' : List (BitVec 16)) :
    CT (Saber.Leak.M0.rowp2BS bytes off data) (Saber.Leak.M0.rowp2BS bytes' off data') := by
  unfold Saber.Leak.M0.rowp2BS
  repeat ctstep
macro_rules | `(tactic| ctstep) => `(tactic| with_reducible exact Saber.Leak.M0.CT_rowp2BS _ _ _ _ _)

theorem CT_rowBS2p (bytes : List Byte) (bytes' : List Byte) (off : Nat) (data : List (BitVec 16)) (data' : List (BitVec 16)) :
    CT (Saber.Leak.M0.rowBS2p bytes off data) (Saber.Leak.M0.rowBS2p bytes' off data') := by
  unfold Saber.Leak.M0.rowBS2p
  repeat ctstep
macro_rules | `(tactic| ctstep) => `(tactic| with_reducible exact Saber.Leak.M0.CT_rowBS2p _ _ _ _ _)

theorem CT_rowq2BS (bytes : List Byte) (bytes' : List Byte) (off : Nat) (data : List (BitVec 16)) (data' : List (BitVec 16)) :
    CT (Saber.Leak.M0.rowq2BS bytes off data) (Saber.Leak.M0.rowq2BS bytes' off data') := by
  unfold Saber.Leak.M0.rowq2BS
  repeat ctstep
macro_rules | `(tactic| ctstep) => `(tactic| with_reducible exact Saber.Leak.M0.CT_rowq2BS _ _ _ _ _)

theorem CT_rowBS2q (bytes : List Byte) (bytes' : List Byte) (off : Nat) (data : List (BitVec 16)) (data' : List (BitVec 16)) :
    CT (Saber.Leak.M0.rowBS2q bytes off data) (Saber.Leak.M0.rowBS2q bytes' off data') := by
  unfold Saber.Leak.M0.rowBS2q
  repeat ctstep
macro_rules | `(tactic| ctstep) => `(tactic| with_reducible exact Saber.Leak.M0.CT_rowBS2q _ _ _ _ _)

theorem CT_POLVECp2BS (bytes : List Byte) (bytes' : List Byte) (off : Nat) (data : List (List (BitVec 16))) (data' : List (List (BitVec 16))) :
    CT (Saber.Leak.M0.POLVECp2BS bytes off data) (Saber.Leak.M0.POLVECp2BS bytes' off data') := by
  unfold Saber.Leak.M0.POLVECp2BS
  repeat ctstep
macro_rules | `(tactic| ctstep) => `(tactic| with_reducible exact Saber.Leak.M0.CT_POLVECp2BS _ _ _ _ _)

theorem CT_BS2POLVECp (bytes : List Byte) (bytes' : List Byte) (off : Nat) (data : List (List (BitVec 16))) (data' : List (List (BitVec 16))) :
    CT (Saber.Leak.M0.BS2POLVECp bytes off data) (Saber.Leak.M0.BS2POLVECp bytes' off data') := by
  unfold Saber.Leak.M0.BS2POLVECp
  repeat ctstep
macro_rules | `(tactic| ctstep) => `(tactic| with_reducible exact Saber.Leak.M0.CT_BS2POLVECp _ _ _ _ _)

theorem CT_BS2POLp (pol_index : Nat) (bytes : List Byte) (bytes' : List Byte) (off : Nat) (pol : List (BitVec 16)) (pol' : List (BitVec 16)) :
    CT (Saber.Leak.M0.BS2POLp pol_index bytes off pol) (Saber.Leak.M0.BS2POLp pol_index bytes' off pol') := by
  unfold Saber.Leak.M0.BS2POLp
  repeat ctstep
macro_rules | `(tactic| ctstep) => `(tactic| with_reducible exact Saber.Leak.M0.CT_BS2POLp _ _ _ _ _ _)

theorem CT_POLVECq2BS (bytes : List Byte) (bytes' : List Byte) (off : Nat) (data : List (List (BitVec 16))) (data' : List (List (BitVec 16))) :
    CT (Saber.Leak.M0.POLVECq2BS bytes off data) (Saber.Leak.M0.POLVECq2BS bytes' off data') := by
  unfold Saber.Leak.M0.POLVECq2BS
  repeat ctstep
macro_rules | `(tactic| ctstep) => `(tactic| with_reducible exact Saber.Leak.M0.CT_POLVECq2BS _ _ _ _ _)

theorem CT_BS2POLVECq (bytes : List Byte) (bytes' : List Byte) (off : Nat) (data : List (List (BitVec 16))) (data' : List (List (BitVec 16))) :
    CT (Saber.Leak.M0.BS2POLVECq bytes off data) (Saber.Leak.M0.BS2POLVECq bytes' off data') := by
  unfold Saber.Leak.M0.BS2POLVECq
  repeat ctstep
macro_rules | `(tactic| ctstep) => `(tactic| with_reducible exact Saber.Leak.M0.CT_BS2POLVECq _ _ _ _ _)

theorem CT_BS2POLq (bytes : List Byte) (bytes' : List Byte) (off : Nat) (data : List (BitVec 16)) (data' : List (BitVec 16)) :
    CT (Saber.Leak.M0.BS2POLq bytes off data) (Saber.Leak.M0.BS2POLq bytes' off data') := by
  unfold Saber.Leak.M0.BS2POLq
  repeat ctstep
macro_rules | `(tactic| ctstep) => `(tactic| with_reducible exact Saber.Leak.M0.CT_BS2POLq _ _ _ _ _)

theorem CT_POLp2BS (bytes : List Byte) (bytes' : List Byte) (off : Nat) (data : List (BitVec 16)) (data' : List (BitVec 16)) (pol_vec_index : Nat) :
    CT (Saber.Leak.M0.POLp2BS bytes off data pol_vec_index) (Saber.Leak.M0.POLp2BS bytes' off data' pol_vec_index) := by
  unfold Saber.Leak.M0.POLp2BS
  repeat ctstep
macro_rules | `(tactic| ctstep) => `(tactic| with_reducible exact Saber.Leak.M0.CT_POLp2BS _ _ _ _ _ _)

theorem CT_school_book_mul2_16 (mac : Mac) (a a' : List (BitVec 16)) (ao : Nat) (b b' : List (BitVec 16)) (bo : Nat) (c c' : List (BitVec 16)) (co : Nat) :
    CT (Saber.Leak.M0.school_book_mul2_16 mac a ao b bo c co) (Saber.Leak.M0.school_book_mul2_16 mac a' ao b' bo c' co) := by
  unfold Saber.Leak.M0.school_book_mul2_16
  repeat first | exact CT.lift _ _ | ctstep
macro_rules | `(tactic| ctstep) => `(tactic| with_reducible exact Saber.Leak.M0.CT_school_book_mul2_16 _ _ _ _ _ _ _ _ _ _)

theorem CT_kara1 (k : Nat) (a : List (BitVec 16)) (a' : List (BitVec 16)) (ao : Nat) (o : Nat) (i : Nat) (s : KM) (s' : KM) :
    CT (Saber.Leak.M0.kara1 k a ao o i s) (Saber.Leak.M0.kara1 k a' ao o i s') := by
  unfold Saber.Leak.M0.kara1
  repeat ctstep
macro_rules | `(tactic| ctstep) => `(tactic| with_reducible exact Saber.Leak.M0.CT_kara1 _ _ _ _ _ _ _ _)

theorem CT_kara1_2 (k : Nat) (c : List (BitVec 16)) (c' : List (BitVec 16)) (co : Nat) (o : Nat) (i : Nat) (s : KM) (s' : KM) :
    CT (Saber.Leak.M0.kara1_2 k c co o i s) (Saber.Leak.M0.kara1_2 k c' co o i s') := by
  unfold Saber.Leak.M0.kara1_2
  repeat ctstep
macro_rules | `(tactic| ctstep) => `(tactic| with_reducible exact Saber.Leak.M0.CT_kara1_2 _ _ _ _ _ _ _ _)

theorem CT_kara2 (k : Nat) (c : List (BitVec 16)) (c' : List (BitVec 16)) (co : Nat) (o : Nat) (i : Nat) (s : KM) (s' : KM) :
    CT (Saber.Leak.M0.kara2 k c co o i s) (Saber.Leak.M0.kara2 k c' co o i s') := by
  unfold Saber.Leak.M0.kara2
  repeat ctstep
macro_rules | `(tactic| ctstep) => `(tactic| with_reducible exact Saber.Leak.M0.CT_kara2 _ _ _ _ _ _ _ _)

theorem CT_kara2' (k : Nat) (c : List (BitVec 16)) (c' : List (BitVec 16)) (co : Nat) (o : Nat) (i : Nat) (s : KM) (s' : KM) :
    CT (Saber.Leak.M0.kara2' k c co o i s) (Saber.Leak.M0.kara2' k c' co o i s') := by
  unfold Saber.Leak.M0.kara2'
  repeat ctstep
macro_rules | `(tactic| ctstep) => `(tactic| with_reducible exact Saber.Leak.M0.CT_kara2' _ _ _ _ _ _ _ _)

theorem CT_kara3 (k : Nat) (c : List (BitVec 16)) (c' : List (BitVec 16)) (co : Nat) (o : Nat) (i : Nat) (s : KM) (s' : KM) :
    CT (Saber.Leak.M0.kara3 k c co o i s) (Saber.Leak.M0.kara3 k c' co o i s') := by
  unfold Saber.Leak.M0.kara3
  repeat ctstep
macro_rules | `(tactic| ctstep) => `(tactic| with_reducible exact Saber.Leak.M0.CT_kara3 _ _ _ _ _ _ _ _)

theorem CT_kara3' (k : Nat) (c : List (BitVec 16)) (c' : List (BitVec 16)) (co : Nat) (o : Nat) (i : Nat) (s : KM) (s' : KM) :
    CT (Saber.Leak.M0.kara3' k c co o i s) (Saber.Leak.M0.kara3' k c' co o i s') := by
  unfold Saber.Leak.M0.kara3'
  repeat ctstep
macro_rules | `(tactic| ctstep) => `(tactic| with_reducible exact Saber.Leak.M0.CT_kara3' _ _ _ _ _ _ _ _)

theorem CT_kara4 (k : Nat) (o : Nat) (i : Nat) (s : KM) (s' : KM) :
    CT (Saber.Leak.M0.kara4 k o i s) (Saber.Leak.M0.kara4 k o i s') := by
  unfold Saber.Leak.M0.kara4
  repeat ctstep
macro_rules | `(tactic| ctstep) => `(tactic| with_reducible exact Saber.Leak.M0.CT_kara4 _ _ _ _ _)

theorem CT_kara4' (k : Nat) (o : Nat) (i : Nat) (s : KM) (s' : KM) :
    CT (Saber.Leak.M0.kara4' k o i s) (Saber.Leak.M0.kara4' k o i s') := by
  unfold Saber.Leak.M0.kara4'
  repeat ctstep
macro_rules | `(tactic| ctstep) => `(tactic| with_reducible exact Saber.Leak.M0.CT_kara4' _ _ _ _ _)

theorem CT_kara4_2 (k : Nat) (a : List (BitVec 16)) (a' : List (BitVec 16)) (ao : Nat) (c : List (BitVec 16)) (c' : List (BitVec 16)) (co : Nat) (o : Nat) (i : Nat) (s : KM) (s' : KM) :
    CT (Saber.Leak.M0.kara4_2 k a ao c co o i s) (Saber.Leak.M0.kara4_2 k a' ao c' co o i s') := by
  unfold Saber.Leak.M0.kara4_2
  repeat ctstep
macro_rules | `(tactic| ctstep) => `(tactic| with_reducible exact Saber.Leak.M0.CT_kara4_2 _ _ _ _ _ _ _ _ _ _ _)

theorem CT_kara5 (k : Nat) (o : Nat) (i : Nat) (s : KM) (s' : KM) :
    CT (Saber.Leak.M0.kara5 k o i s) (Saber.Leak.M0.kara5 k o i s') := by
  unfold Saber.Leak.M0.kara5
  repeat ctstep
macro_rules | `(tactic| ctstep) => `(tactic| with_reducible exact Saber.Leak.M0.CT_kara5 _ _ _ _ _)

theorem CT_kara5' (k : Nat) (o : Nat) (i : Nat) (s : KM) (s' : KM) :
    CT (Saber.Leak.M0.kara5' k o i s) (Saber.Leak.M0.kara5' k o i s') := by
  unfold Saber.Leak.M0.kara5'
  repeat ctstep
macro_rules | `(tactic| ctstep) => `(tactic| with_reducible exact Saber.Leak.M0.CT_kara5' _ _ _ _ _)

theorem CT_kara6 (k : Nat) (o : Nat) (i : Nat) (s : KM) (s' : KM) :
    CT (Saber.Leak.M0.kara6 k o i s) (Saber.Leak.M0.kara6 k o i s') := by
  unfold Saber.Leak.M0.kara6
  repeat ctstep
macro_rules | `(tactic| ctstep) => `(tactic| with_reducible exact Saber.Leak.M0.CT_kara6 _ _ _ _ _)

theorem CT_kara6' (k : Nat) (o : Nat) (i : Nat) (s : KM) (s' : KM) :
    CT (Saber.Leak.M0.kara6' k o i s) (Saber.Leak.M0.kara6' k o i s') := by
  unfold Saber.Leak.M0.kara6'
  repeat ctstep
macro_rules | `(tactic| ctstep) => `(tactic| with_reducible exact Saber.Leak.M0.CT_kara6' _ _ _ _ _)

theorem CT_kara7 (k : Nat) (a : List (BitVec 16)) (a' : List (BitVec 16)) (ao : Nat) (c : List (BitVec 16)) (c' : List (BitVec 16)) (co : Nat) (o : Nat) (i : Nat) (s : KM) (s' : KM) :
    CT (Saber.Leak.M0.kara7 k a ao c co o i s) (Saber.Leak.M0.kara7 k a' ao c' co o i s') := by
  unfold Saber.Leak.M0.kara7
  repeat ctstep
macro_rules | `(tactic| ctstep) => `(tactic| with_reducible exact Saber.Leak.M0.CT_kara7 _ _ _ _ _ _ _ _ _ _ _)

theorem CT_kara7' (k : Nat) (a : List (BitVec 16)) (a' : List (BitVec 16)) (ao : Nat) (c : List (BitVec 16)) (c' : List (BitVec 16)) (co : Nat) (o : Nat) (i : Nat) (s : KM) (s' : KM) :
    CT (Saber.Leak.M0.kara7' k a ao c co o i s) (Saber.Leak.M0.kara7' k a' ao c' co o i s') := by
  unfold Saber.Leak.M0.kara7'
  repeat ctstep
macro_rules | `(tactic| ctstep) => `(tactic| with_reducible exact Saber.Leak.M0.CT_kara7' _ _ _ _ _ _ _ _ _ _ _)

theorem CT_kara8 (k : Nat) (o : Nat) (i : Nat) (s : KM) (s' : KM) :
    CT (Saber.Leak.M0.kara8 k o i s) (Saber.Leak.M0.kara8 k o i s') := by
  unfold Saber.Leak.M0.kara8
  repeat ctstep
macro_rules | `(tactic| ctstep) => `(tactic| with_reducible exact Saber.Leak.M0.CT_kara8 _ _ _ _ _)

theorem CT_kara8' (k : Nat) (o : Nat) (i : Nat) (s : KM) (s' : KM) :
    CT (Saber.Leak.M0.kara8' k o i s) (Saber.Leak.M0.kara8' k o i s') := by
  unfold Saber.Leak.M0.kara8'
  repeat ctstep
macro_rules | `(tactic| ctstep) => `(tactic| with_reducible exact Saber.Leak.M0.CT_kara8' _ _ _ _ _)

theorem CT_kara9 (k : Nat) (o : Nat) (i : Nat) (s : KM) (s' : KM) :
    CT (Saber.Leak.M0.kara9 k o i s) (Saber.Leak.M0.kara9 k o i s') := by
  unfold Saber.Leak.M0.kara9
  repeat ctstep
macro_rules | `(tactic| ctstep) => `(tactic| with_reducible exact Saber.Leak.M0.CT_kara9 _ _ _ _ _)

theorem CT_kara9' (k : Nat) (o : Nat) (i : Nat) (s : KM) (s' : KM) :
    CT (Saber.Leak.M0.kara9' k o i s) (Saber.Leak.M0.kara9' k o i s') := by
  unfold Saber.Leak.M0.kara9'
  repeat ctstep
macro_rules | `(tactic| ctstep) => `(tactic| with_reducible exact Saber.Leak.M0.CT_kara9' _ _ _ _ _)

theorem CT_kara10 (k : Nat) (o : Nat) (i : Nat) (s : KM) (s' : KM) :
    CT (Saber.Leak.M0.kara10 k o i s) (Saber.Leak.M0.kara10 k o i s') := by
  unfold Saber.Leak.M0.kara10
  repeat ctstep
macro_rules | `(tactic| ctstep) => `(tactic| with_reducible exact Saber.Leak.M0.CT_kara10 _ _ _ _ _)

theorem CT_kara10' (k : Nat) (o : Nat) (i : Nat) (s : KM) (s' : KM) :
    CT (Saber.Leak.M0.kara10' k o i s) (Saber.Leak.M0.kara10' k o i s') := by
  unfold Saber.Leak.M0.kara10'
  repeat ctstep
macro_rules | `(tactic| ctstep) => `(tactic| with_reducible exact Saber.Leak.M0.CT_kara10' _ _ _ _ _)

theorem CT_kara (k : Nat) (leaf : LLeaf) (hl : ∀ a a' ao b b' bo c c' co, CT (leaf a ao b bo c co) (leaf a' ao b' bo c' co))
    (a a' : List (BitVec 16)) (ao : Nat) (b b' : List (BitVec 16)) (bo : Nat) (c c' : List (BitVec 16)) (co : Nat) : CT (Saber.Leak.M0.kara k leaf a ao b bo c co) (Saber.Leak.M0.kara k leaf a' ao b' bo c' co) := by
  unfold Saber.Leak.M0.kara
  repeat first | exact hl _ _ _ _ _ _ _ _ _ | ctstep

theorem CT_unrolled_kara_mem_bottom (mac : Mac) (a a' : List (BitVec 16)) (ao : Nat) (b b' : List (BitVec 16)) (bo : Nat) (c c' : List (BitVec 16)) (co : Nat) :
    CT (Saber.Leak.M0.unrolled_kara_mem_bottom mac a ao b bo c co) (Saber.Leak.M0.unrolled_kara_mem_bottom mac a' ao b' bo c' co) := by
  exact CT_kara 32 _ (CT_school_book_mul2_16 mac) a a' ao b b' bo c c' co
macro_rules | `(tactic| ctstep) => `(tactic| with_reducible exact Saber.Leak.M0.CT_unrolled_kara_mem_bottom _ _ _ _ _ _ _ _ _ _)

theorem CT_unrolled_kara_mem_top (mac : Mac) (a a' : List (BitVec 16)) (ao : Nat) (b b' : List (BitVec 16)) (bo : Nat) (c c' : List (BitVec 16)) (co : Nat) :
    CT (Saber.Leak.M0.unrolled_kara_mem_top mac a ao b bo c co) (Saber.Leak.M0.unrolled_kara_mem_top mac a' ao b' bo c' co) := by
  exact CT_kara 128 _ (CT_unrolled_kara_mem_bottom mac) a a' ao b b' bo c c' co
macro_rules | `(tactic| ctstep) => `(tactic| with_reducible exact Saber.Leak.M0.CT_unrolled_kara_mem_top _ _ _ _ _ _ _ _ _ _)

theorem CT_pol_mul (mac : Mac) (a : List (BitVec 16)) (a' : List (BitVec 16)) (b : List (BitVec 16)) (b' : List (BitVec 16)) (res : List (BitVec 16)) (res' : List (BitVec 16)) :
    CT (Saber.Leak.M0.pol_mul mac a b res) (Saber.Leak.M0.pol_mul mac a' b' res') := by
  unfold Saber.Leak.M0.pol_mul
  repeat ctstep
macro_rules | `(tactic| ctstep) => `(tactic| with_reducible exact Saber.Leak.M0.CT_pol_mul _ _ _ _ _ _ _)

theorem CT_load_littleendian (x : List Byte) (x' : List Byte) (off : Nat) (bytes : Nat) :
    CT (Saber.Leak.M0.load_littleendian x off bytes) (Saber.Leak.M0.load_littleendian x' off bytes) := by
  unfold Saber.Leak.M0.load_littleendian
  repeat ctstep
macro_rules | `(tactic| ctstep) => `(tactic| with_reducible exact Saber.Leak.M0.CT_load_littleendian _ _ _ _)

theorem CT_cbd (poly_start_index : Nat) (r : List (BitVec 16)) (r' : List (BitVec 16)) (use_bytes : Nat) (buf : List Byte) (buf' : List Byte) (off : Nat) :
    CT (Saber.Leak.M0.cbd poly_start_index r use_bytes buf off) (Saber.Leak.M0.cbd poly_start_index r' use_bytes buf' off) := by
  unfold Saber.Leak.M0.cbd
  repeat ctstep
macro_rules | `(tactic| ctstep) => `(tactic| with_reducible exact Saber.Leak.M0.CT_cbd _ _ _ _ _ _ _)

theorem CT_shiftBuf (n : Nat) (buf : List Byte) (buf' : List Byte) :
    CT (Saber.Leak.M0.shiftBuf n buf) (Saber.Leak.M0.shiftBuf n buf') := by
  unfold Saber.Leak.M0.shiftBuf
  repeat ctstep
macro_rules | `(tactic| ctstep) => `(tactic| with_reducible exact Saber.Leak.M0.CT_shiftBuf _ _ _)

theorem CT_GenSecret {L L' : LPermute} [PermCT L L'] (r : List (List (BitVec 16))) (r' : List (List (BitVec 16))) (seed : List Byte) (seed' : List Byte) (seedOff : Nat) :
    CT (Saber.Leak.M0.GenSecret (L := L) r seed seedOff) (Saber.Leak.M0.GenSecret (L := L') r' seed' seedOff) := by
  unfold Saber.Leak.M0.GenSecret
  repeat ctstep
macro_rules | `(tactic| ctstep) => `(tactic| with_reducible exact Saber.Leak.M0.CT_GenSecret _ _ _ _ _)

theorem CT_extract (a : BitVec 16) (a' : BitVec 16) (scale_data : BitVec 16) (scale_data' : BitVec 16) :
    CT (Saber.Leak.M0.extract a scale_data) (Saber.Leak.M0.extract a' scale_data') := by
  unfold Saber.Leak.M0.extract
  repeat ctstep
macro_rules | `(tactic| ctstep) => `(tactic| with_reducible exact Saber.Leak.M0.CT_extract _ _ _ _)

theorem CT_GenCipherText (vprime : List (BitVec 16)) (vprime' : List (BitVec 16)) (scl_c : List Byte) (scl_c' : List Byte) :
    CT (Saber.Leak.M0.GenCipherText vprime scl_c) (Saber.Leak.M0.GenCipherText vprime' scl_c') := by
  unfold Saber.Leak.M0.GenCipherText
  repeat ctstep
macro_rules | `(tactic| ctstep) => `(tactic| with_reducible exact Saber.Leak.M0.CT_GenCipherText _ _ _ _)

theorem CT_st16 (m : List Byte) (m' : List Byte) (i : Nat) (v : BitVec 16) (v' : BitVec 16) :
    CT (Saber.Leak.M0.st16 m i v) (Saber.Leak.M0.st16 m' i v') := by
  unfold Saber.Leak.M0.st16
  repeat ctstep
macro_rules | `(tactic| ctstep) => `(tactic| with_reducible exact Saber.Leak.M0.CT_st16 _ _ _ _ _)

theorem CT_ExtractKeyBits (scale_data : List (BitVec 16)) (scale_data' : List (BitVec 16)) (scale_ar : List Byte) (scale_ar' : List Byte) (scaleOff : Nat) (m : List Byte) (m' : List Byte) :
    CT (Saber.Leak.M0.ExtractKeyBits scale_data scale_ar scaleOff m) (Saber.Leak.M0.ExtractKeyBits scale_data' scale_ar' scaleOff m') := by
  unfold Saber.Leak.M0.ExtractKeyBits
  repeat ctstep
macro_rules | `(tactic| ctstep) => `(tactic| with_reducible exact Saber.Leak.M0.CT_ExtractKeyBits _ _ _ _ _ _ _)

theorem CT_byte_bank2pol_part (bytes : List Byte) (bytes' : List Byte) (pol_part : List (BitVec 16)) (pol_part' : List (BitVec 16)) (start : Nat) (num_8coeff : Nat) :
    CT (Saber.Leak.M0.byte_bank2pol_part bytes pol_part start num_8coeff) (Saber.Leak.M0.byte_bank2pol_part bytes' pol_part' start num_8coeff) := by
  unfold Saber.Leak.M0.byte_bank2pol_part
  repeat ctstep
macro_rules | `(tactic| ctstep) => `(tactic| with_reducible exact Saber.Leak.M0.CT_byte_bank2pol_part _ _ _ _ _ _)

section Linked
variable {L L' : LPermute} [PermCT L L']

/-- The static variables that are not data. -/
def GRel (g g' : GS) : Prop := g.start = g'.start ∧ g.left = g'.left

theorem R2_gmStep (a a' : List (BitVec 16)) (g g' : GS) (h : GRel g g') :
    R2 (Saber.Leak.M0.gmStep (L := L) a g) (Saber.Leak.M0.gmStep (L := L') a' g') fun x y => GRel x.2 y.2 := by
  obtain ⟨buf, s, start, left⟩ := g
  obtain ⟨buf', s', start', left'⟩ := g'
  obtain ⟨rfl, rfl⟩ : start = start' ∧ left = left' := h
  unfold Saber.Leak.M0.gmStep
  refine CT.bind (by ctstep) ?_
  rintro ⟨_, _⟩ ⟨_, _⟩
  refine CT.bind (CT.branch _) fun _ _ => CT.bind (by ctstep) fun _ _ => CT.bind ?_ fun _ _ => R2.pure ⟨rfl, rfl⟩
  repeat ctstep

theorem R2_gmLoop (a a' : List (BitVec 16)) (g g' : GS) (h : GRel g g') :
    R2 (Saber.Leak.M0.gmLoop (L := L) a g) (Saber.Leak.M0.gmLoop (L := L') a' g') fun x y => GRel x.2 y.2 := by
  induction hn : 256 - g.start using Nat.strongRecOn generalizing a a' g g' with
  | _ n ih =>
    rw [@Saber.Leak.M0.gmLoop.eq_def L, @Saber.Leak.M0.gmLoop.eq_def L']
    refine R2.bind (R2_gmStep a a' g g' h) ?_
    rintro ⟨a, g1⟩ ⟨a', g1'⟩ h1
    have e1 : g1.start = g1'.start := h1.1
    have e0 := h.1
    refine CT.bind (by simp only [e1]; exact CT.branch _) fun _ _ => ?_
    by_cases c1 : g1'.start > 255
    · simp only [e1, c1, dif_pos]
      exact R2.pure ⟨rfl, h1.2⟩
    · by_cases c2 : g'.start < g1'.start
      · simp only [e0, e1, c1, c2, dif_pos, dif_neg, not_false_eq_true]
        exact ih _ (by omega) a a' g1 g1' h1 rfl
      · simp only [e0, e1, c1, c2, dif_neg, not_false_eq_true]
        exact ⟨fun _ _ h => nomatch h⟩

theorem R2_GenMatrix_poly (temp_ar temp_ar' : List (BitVec 16)) (seed seed' : List Byte) (seedOff poly_number : Nat) (g g' : GS)
    (h : poly_number = 0 ∨ GRel g g') : R2 (Saber.Leak.M0.GenMatrix_poly (L := L) temp_ar seed seedOff poly_number g)
      (Saber.Leak.M0.GenMatrix_poly (L := L') temp_ar' seed' seedOff poly_number g') fun x y => GRel x.2 y.2 := by
  unfold Saber.Leak.M0.GenMatrix_poly
  refine CT.bind (CT.branch _) fun _ _ => ?_
  by_cases c : poly_number = 0
  · rw [if_pos c, if_pos c]
    refine CT.bind (by ctstep) fun _ _ => CT.bind (by ctstep) fun _ _ => R2_gmLoop _ _ _ _ ⟨rfl, rfl⟩
  · rw [if_neg c, if_neg c]
    exact R2_gmLoop _ _ _ _ (h.resolve_left c)

theorem CT_roundRow (r : List (BitVec 16)) (r' : List (BitVec 16)) :
    CT (Saber.Leak.M0.roundRow r) (Saber.Leak.M0.roundRow r') := by
  unfold Saber.Leak.M0.roundRow
  repeat ctstep
macro_rules | `(tactic| ctstep) => `(tactic| with_reducible exact Saber.Leak.M0.CT_roundRow _ _)

theorem CT_MatrixVectorMul_keypair (mac : Mac) (seed seed' : List Byte) (skpv skpv' res res' : List (List (BitVec 16))) (gs gs' : GS) :
    CT (Saber.Leak.M0.MatrixVectorMul_keypair (L := L) mac seed skpv res gs) (Saber.Leak.M0.MatrixVectorMul_keypair (L := L') mac seed' skpv' res' gs') := by
  unfold Saber.Leak.M0.MatrixVectorMul_keypair
  refine R2.bind (R2.loop (I := fun i a b => i = 0 ∨ GRel a.2.2 b.2.2) ?_ _ _ _ (.inl rfl)) ?_
  · intro i s t hi
    refine R2.mono (R2.loop (I := fun j a b => i + j = 0 ∨ GRel a.2.2 b.2.2) ?_ _ _ _ hi) fun a b h => ?_
    · rintro j ⟨res, temp, g⟩ ⟨res', temp', g'⟩ hj
      refine R2.bind (R2_GenMatrix_poly _ _ _ _ _ _ _ _ hj) ?_
      rintro ⟨temp, g⟩ ⟨temp', g'⟩ hg
      refine CT.bind (by ctstep) fun _ _ => CT.bind (by ctstep) fun _ _ => CT.bind (by ctstep) fun _ _ => CT.bind (by ctstep) fun _ _ => ?_
      exact R2.pure (.inr hg)
    · rcases h with h | h
      · exact absurd h (by show i + 3 ≠ 0; omega)
      · exact .inr h
  · rintro ⟨_, _, _⟩ ⟨_, _, _⟩ _
    exact CT.pure _ _
macro_rules | `(tactic| ctstep) => `(tactic| with_reducible exact Saber.Leak.M0.CT_MatrixVectorMul_keypair _ _ _ _ _ _ _ _ _)

theorem CT_MatrixVectorMul_encryption (mac : Mac) (seed seed' : List Byte) (skpv skpv' : List (List (BitVec 16)))
    (ciphertext ciphertext' : List Byte) (gs gs' : GS) : CT (Saber.Leak.M0.MatrixVectorMul_encryption (L := L) mac seed skpv ciphertext gs)
      (Saber.Leak.M0.MatrixVectorMul_encryption (L := L') mac seed' skpv' ciphertext' gs') := by
  unfold Saber.Leak.M0.MatrixVectorMul_encryption
  refine R2.bind (R2.loop (I := fun i a b => i = 0 ∨ GRel a.2 b.2) ?_ _ _ _ (.inl rfl)) ?_
  · rintro i ⟨c, g⟩ ⟨c', g'⟩ hi
    refine CT.bind (by repeat ctstep) fun res res' => CT.bind (by repeat ctstep) fun acc acc' => ?_
    refine R2.bind (R2.loop (I := fun j a b => i + j = 0 ∨ GRel a.2.2 b.2.2) ?_ _ _ _ hi) ?_
    · rintro j ⟨res, acc, g⟩ ⟨res', acc', g'⟩ hj
      refine R2.bind (R2_GenMatrix_poly _ _ _ _ _ _ _ _ hj) ?_
      rintro ⟨acc, g⟩ ⟨acc', g'⟩ hg
      exact CT.bind (by ctstep) fun _ _ => CT.bind (by ctstep) fun _ _ => R2.pure (.inr hg)
    · rintro ⟨res, acc, g⟩ ⟨res', acc', g'⟩ h
      refine CT.bind (by ctstep) fun _ _ => CT.bind (by ctstep) fun _ _ => R2.pure (.inr ?_)
      rcases h with h | h
      · exact absurd h (by show i + 3 ≠ 0; omega)
      · exact h
  · rintro ⟨_, _⟩ ⟨_, _⟩ _
    exact CT.pure _ _
macro_rules | `(tactic| ctstep) => `(tactic| with_reducible exact Saber.Leak.M0.CT_MatrixVectorMul_encryption _ _ _ _ _ _ _ _ _)

theorem CT_VectorMul (mac : Mac) (byte_array : List Byte) (byte_array' : List Byte) (off : Nat) (skpv : List (List (BitVec 16))) (skpv' : List (List (BitVec 16))) (res : List (BitVec 16)) (res' : List (BitVec 16)) :
    CT (Saber.Leak.M0.VectorMul mac byte_array off skpv res) (Saber.Leak.M0.VectorMul mac byte_array' off skpv' res') := by
  unfold Saber.Leak.M0.VectorMul
  repeat ctstep
macro_rules | `(tactic| ctstep) => `(tactic| with_reducible exact Saber.Leak.M0.CT_VectorMul _ _ _ _ _ _ _ _)

theorem CT_maskVec (v : List (List (BitVec 16))) (v' : List (List (BitVec 16))) :
    CT (Saber.Leak.M0.maskVec v) (Saber.Leak.M0.maskVec v') := by
  unfold Saber.Leak.M0.maskVec
  repeat ctstep
macro_rules | `(tactic| ctstep) => `(tactic| with_reducible exact Saber.Leak.M0.CT_maskVec _ _)

theorem CT_indcpa_kem_keypair {σ τ : Type} (mac : Mac) (rb : RandomBytes σ) (rb' : RandomBytes τ) (gs : GS) (gs' : GS) (pk : List Byte) (pk' : List Byte) (sk : List Byte) (sk' : List Byte) (st : σ) (st' : τ) :
    CT (Saber.Leak.M0.indcpa_kem_keypair (L := L) mac rb gs pk sk st) (Saber.Leak.M0.indcpa_kem_keypair (L := L') mac rb' gs' pk' sk' st') := by
  unfold Saber.Leak.M0.indcpa_kem_keypair
  repeat ctstep
macro_rules | `(tactic| ctstep) => `(tactic| with_reducible exact Saber.Leak.M0.CT_indcpa_kem_keypair _ _ _ _ _ _ _ _ _ _ _)

theorem CT_addMsg (m : List Byte) (m' : List Byte) (mOff : Nat) (vprime : List (BitVec 16)) (vprime' : List (BitVec 16)) :
    CT (Saber.Leak.M0.addMsg m mOff vprime) (Saber.Leak.M0.addMsg m' mOff vprime') := by
  unfold Saber.Leak.M0.addMsg
  repeat ctstep
macro_rules | `(tactic| ctstep) => `(tactic| with_reducible exact Saber.Leak.M0.CT_addMsg _ _ _ _ _)

theorem CT_indcpa_kem_enc (mac : Mac) (gs : GS) (gs' : GS) (m : List Byte) (m' : List Byte) (mOff : Nat) (noiseseed : List Byte) (noiseseed' : List Byte) (seedOff : Nat) (pk : List Byte) (pk' : List Byte) (pkOff : Nat) (ciphertext : List Byte) (ciphertext' : List Byte) :
    CT (Saber.Leak.M0.indcpa_kem_enc (L := L) mac gs m mOff noiseseed seedOff pk pkOff ciphertext) (Saber.Leak.M0.indcpa_kem_enc (L := L') mac gs' m' mOff noiseseed' seedOff pk' pkOff ciphertext') := by
  unfold Saber.Leak.M0.indcpa_kem_enc
  repeat ctstep
macro_rules | `(tactic| ctstep) => `(tactic| with_reducible exact Saber.Leak.M0.CT_indcpa_kem_enc _ _ _ _ _ _ _ _ _ _ _ _ _ _)

theorem CT_indcpa_kem_dec (mac : Mac) (sk : List Byte) (sk' : List Byte) (ciphertext : List Byte) (ciphertext' : List Byte) (message_dec : List Byte) (message_dec' : List Byte) :
    CT (Saber.Leak.M0.indcpa_kem_dec mac sk ciphertext message_dec) (Saber.Leak.M0.indcpa_kem_dec mac sk' ciphertext' message_dec') := by
  unfold Saber.Leak.M0.indcpa_kem_dec
  repeat ctstep
macro_rules | `(tactic| ctstep) => `(tactic| with_reducible exact Saber.Leak.M0.CT_indcpa_kem_dec _ _ _ _ _ _ _)

theorem CT_verify (a : List Byte) (a' : List Byte) (aOff : Nat) (b : List Byte) (b' : List Byte) (bOff : Nat) (len : Nat) :
    CT (Saber.Leak.M0.verify a aOff b bOff len) (Saber.Leak.M0.verify a' aOff b' bOff len) := by
  unfold Saber.Leak.M0.verify
  repeat ctstep
macro_rules | `(tactic| ctstep) => `(tactic| with_reducible exact Saber.Leak.M0.CT_verify _ _ _ _ _ _ _)

theorem CT_cmov (r : List Byte) (r' : List Byte) (rOff : Nat) (x : List Byte) (x' : List Byte) (xOff : Nat) (len : Nat) (b : Byte) (b' : Byte) :
    CT (Saber.Leak.M0.cmov r rOff x xOff len b) (Saber.Leak.M0.cmov r' rOff x' xOff len b') := by
  unfold Saber.Leak.M0.cmov
  repeat ctstep
macro_rules | `(tactic| ctstep) => `(tactic| with_reducible exact Saber.Leak.M0.CT_cmov _ _ _ _ _ _ _ _ _)

theorem CT_crypto_kem_keypair {σ τ : Type} (mac : Mac) (rb : RandomBytes σ) (rb' : RandomBytes τ) (gs : GS) (gs' : GS) (pk : List Byte) (pk' : List Byte) (sk : List Byte) (sk' : List Byte) (st : σ) (st' : τ) :
    CT (Saber.Leak.M0.crypto_kem_keypair (L := L) mac rb gs pk sk st) (Saber.Leak.M0.crypto_kem_keypair (L := L') mac rb' gs' pk' sk' st') := by
  unfold Saber.Leak.M0.crypto_kem_keypair
  repeat ctstep
macro_rules | `(tactic| ctstep) => `(tactic| with_reducible exact Saber.Leak.M0.CT_crypto_kem_keypair _ _ _ _ _ _ _ _ _ _ _)

theorem CT_crypto_kem_enc {σ τ : Type} (mac : Mac) (rb : RandomBytes σ) (rb' : RandomBytes τ) (gs : GS) (gs' : GS) (c : List Byte) (c' : List Byte) (k : List Byte) (k' : List Byte) (pk : List Byte) (pk' : List Byte) (st : σ) (st' : τ) :
    CT (Saber.Leak.M0.crypto_kem_enc (L := L) mac rb gs c k pk st) (Saber.Leak.M0.crypto_kem_enc (L := L') mac rb' gs' c' k' pk' st') := by
  unfold Saber.Leak.M0.crypto_kem_enc
  repeat ctstep
macro_rules | `(tactic| ctstep) => `(tactic| with_reducible exact Saber.Leak.M0.CT_crypto_kem_enc _ _ _ _ _ _ _ _ _ _ _ _ _)

theorem CT_crypto_kem_dec (mac : Mac) (gs : GS) (gs' : GS) (k : List Byte) (k' : List Byte) (c : List Byte) (c' : List Byte) (sk : List Byte) (sk' : List Byte) :
    CT (Saber.Leak.M0.crypto_kem_dec (L := L) mac gs k c sk) (Saber.Leak.M0.crypto_kem_dec (L := L') mac gs' k' c' sk') := by
  unfold Saber.Leak.M0.crypto_kem_dec
  repeat ctstep
macro_rules | `(tactic| ctstep) => `(tactic| with_reducible exact Saber.Leak.M0.CT_crypto_kem_dec _ _ _ _ _ _ _ _ _)

end Linked

end Saber.Leak.M0
