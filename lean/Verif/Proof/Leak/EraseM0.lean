import Verif.Model.Leak.M0
import Verif.Proof.Leak.Erase
/-! # Cortex-M0: leaving out the events gives the model -/
set_option linter.unusedSectionVars false

namespace Saber.Leak.M0
open Saber.M0

theorem E_zeroState (s : List (BitVec 64)) : E (Saber.Leak.M0.zeroState s) (Saber.M0.zeroState s) := by
  unfold Saber.Leak.M0.zeroState Saber.M0.zeroState
  repeat estep
macro_rules | `(tactic| estep) => `(tactic| with_reducible exact Saber.Leak.M0.E_zeroState _)

section Linked
variable [LPermute] [StatePermute] [Erases]

theorem E_keccak_absorb (s : List (BitVec 64)) (r : Nat) (m : List Byte) (mOff : Nat) (mlen : Nat) (p : Byte) : E (Saber.Leak.M0.keccak_absorb s r m mOff mlen p) (Saber.M0.keccak_absorb s r m mOff mlen p) := by
  unfold Saber.Leak.M0.keccak_absorb Saber.M0.keccak_absorb
  repeat estep
macro_rules | `(tactic| estep) => `(tactic| with_reducible exact Saber.Leak.M0.E_keccak_absorb _ _ _ _ _ _)

theorem E_squeezeOut (r : Nat) (output : List Byte) (outOff : Nat) (outlen : Nat) (s : List (BitVec 64)) : E (Saber.Leak.M0.squeezeOut r output outOff outlen s) (Saber.M0.squeezeOut r output outOff outlen s) := by
  unfold Saber.Leak.M0.squeezeOut Saber.M0.squeezeOut
  repeat estep
macro_rules | `(tactic| estep) => `(tactic| with_reducible exact Saber.Leak.M0.E_squeezeOut _ _ _ _ _)

theorem E_shake128 (output : List Byte) (outOff : Nat) (outlen : Nat) (input : List Byte) (inOff : Nat) (inlen : Nat) : E (Saber.Leak.M0.shake128 output outOff outlen input inOff inlen) (Saber.M0.shake128 output outOff outlen input inOff inlen) := by
  unfold Saber.Leak.M0.shake128 Saber.M0.shake128
  repeat estep
macro_rules | `(tactic| estep) => `(tactic| with_reducible exact Saber.Leak.M0.E_shake128 _ _ _ _ _ _)

theorem E_sha3_256 (output : List Byte) (outOff : Nat) (input : List Byte) (inOff : Nat) (inlen : Nat) : E (Saber.Leak.M0.sha3_256 output outOff input inOff inlen) (Saber.M0.sha3_256 output outOff input inOff inlen) := by
  unfold Saber.Leak.M0.sha3_256 Saber.M0.sha3_256
  repeat estep
macro_rules | `(tactic| estep) => `(tactic| with_reducible exact Saber.Leak.M0.E_sha3_256 _ _ _ _ _)

theorem E_sha3_512 (output : List Byte) (outOff : Nat) (input : List Byte) (inOff : Nat) (inlen : Nat) : E (Saber.Leak.M0.sha3_512 output outOff input inOff inlen) (Saber.M0.sha3_512 output outOff input inOff inlen) := by
  unfold Saber.Leak.M0.sha3_512 Saber.M0.sha3_512
  repeat estep
macro_rules | `(tactic| estep) => `(tactic| with_reducible exact Saber.Leak.M0.E_sha3_512 _ _ _ _ _)

theorem E_cshake_simple_absorb (r : Nat) (b1 : Byte) (s : List (BitVec 64)) (cstm : BitVec 16) (input : List Byte) (inOff : Nat) (inlen : Nat) : E (Saber.Leak.M0.cshake_simple_absorb r b1 s cstm input inOff inlen) (Saber.M0.cshake_simple_absorb r b1 s cstm input inOff inlen) := by
  unfold Saber.Leak.M0.cshake_simple_absorb Saber.M0.cshake_simple_absorb
  repeat estep
macro_rules | `(tactic| estep) => `(tactic| with_reducible exact Saber.Leak.M0.E_cshake_simple_absorb _ _ _ _ _ _ _)

theorem E_cshake128_simple (output : List Byte) (outOff : Nat) (outlen : Nat) (cstm : BitVec 16) (input : List Byte) (inOff : Nat) (inlen : Nat) : E (Saber.Leak.M0.cshake128_simple output outOff outlen cstm input inOff inlen) (Saber.M0.cshake128_simple output outOff outlen cstm input inOff inlen) := by
  unfold Saber.Leak.M0.cshake128_simple Saber.M0.cshake128_simple
  repeat estep
macro_rules | `(tactic| estep) => `(tactic| with_reducible exact Saber.Leak.M0.E_cshake128_simple _ _ _ _ _ _ _)

theorem E_cshake256_simple (output : List Byte) (outOff : Nat) (outlen : Nat) (cstm : BitVec 16) (input : List Byte) (inOff : Nat) (inlen : Nat) : E (Saber.Leak.M0.cshake256_simple output outOff outlen cstm input inOff inlen) (Saber.M0.cshake256_simple output outOff outlen cstm input inOff inlen) := by
  unfold Saber.Leak.M0.cshake256_simple Saber.M0.cshake256_simple
  repeat estep
macro_rules | `(tactic| estep) => `(tactic| with_reducible exact Saber.Leak.M0.E_cshake256_simple _ _ _ _ _ _ _)

theorem E_shake256 (output : List Byte) (outOff : Nat) (outlen : Nat) (input : List Byte) (inOff : Nat) (inlen : Nat) : E (Saber.Leak.M0.shake256 output outOff outlen input inOff inlen) (Saber.M0.shake256 output outOff outlen input inOff inlen) := by
  unfold Saber.Leak.M0.shake256 Saber.M0.shake256
  repeat estep
macro_rules | `(tactic| estep) => `(tactic| with_reducible exact Saber.Leak.M0.E_shake256 _ _ _ _ _ _)

end Linked

theorem E_SABER_pack_3bit (bytes : List Byte) (off : Nat) (data : List (BitVec 16)) : E (Saber.Leak.M0.SABER_pack_3bit bytes off data) (Saber.M0.SABER_pack_3bit bytes off data) := by
  unfold Saber.Leak.M0.SABER_pack_3bit Saber.M0.SABER_pack_3bit
  repeat estep
macro_rules | `(tactic| estep) => `(tactic| with_reducible exact Saber.Leak.M0.E_SABER_pack_3bit _ _ _)

theorem E_SABER_un_pack3bit (bytes : List Byte) (off : Nat) (data : List (BitVec 16)) : E (Saber.Leak.M0.SABER_un_pack3bit bytes off data) (Saber.M0.SABER_un_pack3bit bytes off data) := by
  unfold Saber.Leak.M0.SABER_un_pack3bit Saber.M0.SABER_un_pack3bit
  repeat estep
macro_rules | `(tactic| estep) => `(tactic| with_reducible exact Saber.Leak.M0.E_SABER_un_pack3bit _ _ _)

theorem E_SABER_pack_4bit (bytes : List Byte) (off : Nat) (data : List (BitVec 16)) : E (Saber.Leak.M0.SABER_pack_4bit bytes off data) (Saber.M0.SABER_pack_4bit bytes off data) := by
  unfold Saber.Leak.M0.SABER_pack_4bit Saber.M0.SABER_pack_4bit
  repeat estep
macro_rules | `(tactic| estep) => `(tactic| with_reducible exact Saber.Leak.M0.E_SABER_pack_4bit _ _ _)

theorem E_SABER_un_pack4bit (bytes : List Byte) (off : Nat) (data : List (BitVec 16)) : E (Saber.Leak.M0.SABER_un_pack4bit bytes off data) (Saber.M0.SABER_un_pack4bit bytes off data) := by
  unfold Saber.Leak.M0.SABER_un_pack4bit Saber.M0.SABER_un_pack4bit
  repeat estep
macro_rules | `(tactic| estep) => `(tactic| with_reducible exact Saber.Leak.M0.E_SABER_un_pack4bit _ _ _)

theorem E_SABER_pack_6bit (bytes : List Byte) (off : Nat) (data : List (BitVec 16)) : E (Saber.Leak.M0.SABER_pack_6bit bytes off data) (Saber.M0.SABER_pack_6bit bytes off data) := by
  unfold Saber.Leak.M0.SABER_pack_6bit Saber.M0.SABER_pack_6bit
  repeat estep
macro_rules | `(tactic| estep) => `(tactic| with_reducible exact Saber.Leak.M0.E_SABER_pack_6bit _ _ _)

theorem E_SABER_un_pack6bit (bytes : List Byte) (off : Nat) (data : List (BitVec 16)) : E (Saber.Leak.M0.SABER_un_pack6bit bytes off data) (Saber.M0.SABER_un_pack6bit bytes off data) := by
  unfold Saber.Leak.M0.SABER_un_pack6bit Saber.M0.SABER_un_pack6bit
  repeat estep
macro_rules | `(tactic| estep) => `(tactic| with_reducible exact Saber.Leak.M0.E_SABER_un_pack6bit _ _ _)

theorem E_rowp2BS (bytes : List Byte) (off : Nat) (data : List (BitVec 16)) : E (Saber.Leak.M0.rowp2BS bytes off data) (Saber.M0.rowp2BS bytes off data) := by
  unfold Saber.Leak.M0.rowp2BS Saber.M0.rowp2BS
  repeat estep
macro_rules | `(tactic| estep) => `(tactic| with_reducible exact Saber.Leak.M0.E_rowp2BS _ _ _)

theorem E_rowBS2p (bytes : List Byte) (off : Nat) (data : List (BitVec 16)) : E (Saber.Leak.M0.rowBS2p bytes off data) (Saber.M0.rowBS2p bytes off data) := by
  unfold Saber.Leak.M0.rowBS2p Saber.M0.rowBS2p
  repeat estep
macro_rules | `(tactic| estep) => `(tactic| with_reducible exact Saber.Leak.M0.E_rowBS2p _ _ _)

theorem E_rowq2BS (bytes : List Byte) (off : Nat) (data : List (BitVec 16)) : E (Saber.Leak.M0.rowq2BS bytes off data) (Saber.M0.rowq2BS bytes off data) := by
  unfold Saber.Leak.M0.rowq2BS Saber.M0.rowq2BS
  repeat estep
macro_rules | `(tactic| estep) => `(tactic| with_reducible exact Saber.Leak.M0.E_rowq2BS _ _ _)

theorem E_rowBS2q (bytes : List Byte) (off : Nat) (data : List (BitVec 16)) : E (Saber.Leak.M0.rowBS2q bytes off data) (Saber.M0.rowBS2q bytes off data) := by
  unfold Saber.Leak.M0.rowBS2q Saber.M0.rowBS2q
  repeat estep
macro_rules | `(tactic| estep) => `(tactic| with_reducible exact Saber.Leak.M0.E_rowBS2q _ _ _)

theorem E_POLVECp2BS (bytes : List Byte) (off : Nat) (data : List (List (BitVec 16))) : E (Saber.Leak.M0.POLVECp2BS bytes off data) (Saber.M0.POLVECp2BS bytes off data) := by
  unfold Saber.Leak.M0.POLVECp2BS Saber.M0.POLVECp2BS
  repeat estep
macro_rules | `(tactic| estep) => `(tactic| with_reducible exact Saber.Leak.M0.E_POLVECp2BS _ _ _)

theorem E_BS2POLVECp (bytes : List Byte) (off : Nat) (data : List (List (BitVec 16))) : E (Saber.Leak.M0.BS2POLVECp bytes off data) (Saber.M0.BS2POLVECp bytes off data) := by
  unfold Saber.Leak.M0.BS2POLVECp Saber.M0.BS2POLVECp
  repeat estep
macro_rules | `(tactic| estep) => `(tactic| with_reducible exact Saber.Leak.M0.E_BS2POLVECp _ _ _)

theorem E_BS2POLp (pol_index : Nat) (bytes : List Byte) (off : Nat) (pol : List (BitVec 16)) : E (Saber.Leak.M0.BS2POLp pol_index bytes off pol) (Saber.M0.BS2POLp pol_index bytes off pol) := by
  unfold Saber.Leak.M0.BS2POLp Saber.M0.BS2POLp
  repeat estep
macro_rules | `(tactic| estep) => `(tactic| with_reducible exact Saber.Leak.M0.E_BS2POLp _ _ _ _)

theorem E_POLVECq2BS (bytes : List Byte) (off : Nat) (data : List (List (BitVec 16))) : E (Saber.Leak.M0.POLVECq2BS bytes off data) (Saber.M0.POLVECq2BS bytes off data) := by
  unfold Saber.Leak.M0.POLVECq2BS Saber.M0.POLVECq2BS
  repeat estep
macro_rules | `(tactic| estep) => `(tactic| with_reducible exact Saber.Leak.M0.E_POLVECq2BS _ _ _)

theorem E_BS2POLVECq (bytes : List Byte) (off : Nat) (data : List (List (BitVec 16))) : E (Saber.Leak.M0.BS2POLVECq bytes off data) (Saber.M0.BS2POLVECq bytes off data) := by
  unfold Saber.Leak.M0.BS2POLVECq Saber.M0.BS2POLVECq
  repeat estep
macro_rules | `(tactic| estep) => `(tactic| with_reducible exact Saber.Leak.M0.E_BS2POLVECq _ _ _)

theorem E_BS2POLq (bytes : List Byte) (off : Nat) (data : List (BitVec 16)) : E (Saber.Leak.M0.BS2POLq bytes off data) (Saber.M0.BS2POLq bytes off data) := by
  unfold Saber.Leak.M0.BS2POLq Saber.M0.BS2POLq
  repeat estep
macro_rules | `(tactic| estep) => `(tactic| with_reducible exact Saber.Leak.M0.E_BS2POLq _ _ _)

theorem E_POLp2BS (bytes : List Byte) (off : Nat) (data : List (BitVec 16)) (pol_vec_index : Nat) : E (Saber.Leak.M0.POLp2BS bytes off data pol_vec_index) (Saber.M0.POLp2BS bytes off data pol_vec_index) := by
  unfold Saber.Leak.M0.POLp2BS Saber.M0.POLp2BS
  repeat estep
macro_rules | `(tactic| estep) => `(tactic| with_reducible exact Saber.Leak.M0.E_POLp2BS _ _ _ _)

theorem E_school_book_mul2_16 (mac : Mac) (a : List (BitVec 16)) (ao : Nat) (b : List (BitVec 16)) (bo : Nat) (c : List (BitVec 16)) (co : Nat) :
    E (Saber.Leak.M0.school_book_mul2_16 mac a ao b bo c co) (Saber.M0.school_book_mul2_16 mac a ao b bo c co) := by
  unfold Saber.Leak.M0.school_book_mul2_16 Saber.M0.school_book_mul2_16
  repeat first | exact E.lift _ | estep
macro_rules | `(tactic| estep) => `(tactic| with_reducible exact Saber.Leak.M0.E_school_book_mul2_16 _ _ _ _ _ _ _)

theorem E_kara1 (k : Nat) (a : List (BitVec 16)) (ao : Nat) (o : Nat) (i : Nat) (s : KM) : E (Saber.Leak.M0.kara1 k a ao o i s) (Saber.M0.kara1 k a ao o i s) := by
  unfold Saber.Leak.M0.kara1 Saber.M0.kara1
  repeat estep
macro_rules | `(tactic| estep) => `(tactic| with_reducible exact Saber.Leak.M0.E_kara1 _ _ _ _ _ _)

theorem E_kara1_2 (k : Nat) (c : List (BitVec 16)) (co : Nat) (o : Nat) (i : Nat) (s : KM) : E (Saber.Leak.M0.kara1_2 k c co o i s) (Saber.M0.kara1_2 k c co o i s) := by
  unfold Saber.Leak.M0.kara1_2 Saber.M0.kara1_2
  repeat estep
macro_rules | `(tactic| estep) => `(tactic| with_reducible exact Saber.Leak.M0.E_kara1_2 _ _ _ _ _ _)

theorem E_kara2 (k : Nat) (c : List (BitVec 16)) (co : Nat) (o : Nat) (i : Nat) (s : KM) : E (Saber.Leak.M0.kara2 k c co o i s) (Saber.M0.kara2 k c co o i s) := by
  unfold Saber.Leak.M0.kara2 Saber.M0.kara2
  repeat estep
macro_rules | `(tactic| estep) => `(tactic| with_reducible exact Saber.Leak.M0.E_kara2 _ _ _ _ _ _)

theorem E_kara2' (k : Nat) (c : List (BitVec 16)) (co : Nat) (o : Nat) (i : Nat) (s : KM) : E (Saber.Leak.M0.kara2' k c co o i s) (Saber.M0.kara2' k c co o i s) := by
  unfold Saber.Leak.M0.kara2' Saber.M0.kara2'
  repeat estep
macro_rules | `(tactic| estep) => `(tactic| with_reducible exact Saber.Leak.M0.E_kara2' _ _ _ _ _ _)

theorem E_kara3 (k : Nat) (c : List (BitVec 16)) (co : Nat) (o : Nat) (i : Nat) (s : KM) : E (Saber.Leak.M0.kara3 k c co o i s) (Saber.M0.kara3 k c co o i s) := by
  unfold Saber.Leak.M0.kara3 Saber.M0.kara3
  repeat estep
macro_rules | `(tactic| estep) => `(tactic| with_reducible exact Saber.Leak.M0.E_kara3 _ _ _ _ _ _)

theorem E_kara3' (k : Nat) (c : List (BitVec 16)) (co : Nat) (o : Nat) (i : Nat) (s : KM) : E (Saber.Leak.M0.kara3' k c co o i s) (Saber.M0.kara3' k c co o i s) := by
  unfold Saber.Leak.M0.kara3' Saber.M0.kara3'
  repeat estep
macro_rules | `(tactic| estep) => `(tactic| with_reducible exact Saber.Leak.M0.E_kara3' _ _ _ _ _ _)

theorem E_kara4 (k : Nat) (o : Nat) (i : Nat) (s : KM) : E (Saber.Leak.M0.kara4 k o i s) (Saber.M0.kara4 k o i s) := by
  unfold Saber.Leak.M0.kara4 Saber.M0.kara4
  repeat estep
macro_rules | `(tactic| estep) => `(tactic| with_reducible exact Saber.Leak.M0.E_kara4 _ _ _ _)

theorem E_kara4' (k : Nat) (o : Nat) (i : Nat) (s : KM) : E (Saber.Leak.M0.kara4' k o i s) (Saber.M0.kara4' k o i s) := by
  unfold Saber.Leak.M0.kara4' Saber.M0.kara4'
  repeat estep
macro_rules | `(tactic| estep) => `(tactic| with_reducible exact Saber.Leak.M0.E_kara4' _ _ _ _)

theorem E_kara4_2 (k : Nat) (a : List (BitVec 16)) (ao : Nat) (c : List (BitVec 16)) (co : Nat) (o : Nat) (i : Nat) (s : KM) : E (Saber.Leak.M0.kara4_2 k a ao c co o i s) (Saber.M0.kara4_2 k a ao c co o i s) := by
  unfold Saber.Leak.M0.kara4_2 Saber.M0.kara4_2
  repeat estep
macro_rules | `(tactic| estep) => `(tactic| with_reducible exact Saber.Leak.M0.E_kara4_2 _ _ _ _ _ _ _ _)

theorem E_kara5 (k : Nat) (o : Nat) (i : Nat) (s : KM) : E (Saber.Leak.M0.kara5 k o i s) (Saber.M0.kara5 k o i s) := by
  unfold Saber.Leak.M0.kara5 Saber.M0.kara5
  repeat estep
macro_rules | `(tactic| estep) => `(tactic| with_reducible exact Saber.Leak.M0.E_kara5 _ _ _ _)

theorem E_kara5' (k : Nat) (o : Nat) (i : Nat) (s : KM) : E (Saber.Leak.M0.kara5' k o i s) (Saber.M0.kara5' k o i s) := by
  unfold Saber.Leak.M0.kara5' Saber.M0.kara5'
  repeat estep
macro_rules | `(tactic| estep) => `(tactic| with_reducible exact Saber.Leak.M0.E_kara5' _ _ _ _)

theorem E_kara6 (k : Nat) (o : Nat) (i : Nat) (s : KM) : E (Saber.Leak.M0.kara6 k o i s) (Saber.M0.kara6 k o i s) := by
  unfold Saber.Leak.M0.kara6 Saber.M0.kara6
  repeat estep
macro_rules | `(tactic| estep) => `(tactic| with_reducible exact Saber.Leak.M0.E_kara6 _ _ _ _)

theorem E_kara6' (k : Nat) (o : Nat) (i : Nat) (s : KM) : E (Saber.Leak.M0.kara6' k o i s) (Saber.M0.kara6' k o i s) := by
  unfold Saber.Leak.M0.kara6' Saber.M0.kara6'
  repeat estep
macro_rules | `(tactic| estep) => `(tactic| with_reducible exact Saber.Leak.M0.E_kara6' _ _ _ _)

theorem E_kara7 (k : Nat) (a : List (BitVec 16)) (ao : Nat) (c : List (BitVec 16)) (co : Nat) (o : Nat) (i : Nat) (s : KM) : E (Saber.Leak.M0.kara7 k a ao c co o i s) (Saber.M0.kara7 k a ao c co o i s) := by
  unfold Saber.Leak.M0.kara7 Saber.M0.kara7
  repeat estep
macro_rules | `(tactic| estep) => `(tactic| with_reducible exact Saber.Leak.M0.E_kara7 _ _ _ _ _ _ _ _)

theorem E_kara7' (k : Nat) (a : List (BitVec 16)) (ao : Nat) (c : List (BitVec 16)) (co : Nat) (o : Nat) (i : Nat) (s : KM) : E (Saber.Leak.M0.kara7' k a ao c co o i s) (Saber.M0.kara7' k a ao c co o i s) := by
  unfold Saber.Leak.M0.kara7' Saber.M0.kara7'
  repeat estep
macro_rules | `(tactic| estep) => `(tactic| with_reducible exact Saber.Leak.M0.E_kara7' _ _ _ _ _ _ _ _)

theorem E_kara8 (k : Nat) (o : Nat) (i : Nat) (s : KM) : E (Saber.Leak.M0.kara8 k o i s) (Saber.M0.kara8 k o i s) := by
  unfold Saber.Leak.M0.kara8 Saber.M0.kara8
  repeat estep
macro_rules | `(tactic| estep) => `(tactic| with_reducible exact Saber.Leak.M0.E_kara8 _ _ _ _)

theorem E_kara8' (k : Nat) (o : Nat) (i : Nat) (s : KM) : E (Saber.Leak.M0.kara8' k o i s) (Saber.M0.kara8' k o i s) := by
  unfold Saber.Leak.M0.kara8' Saber.M0.kara8'
  repeat estep
macro_rules | `(tactic| estep) => `(tactic| with_reducible exact Saber.Leak.M0.E_kara8' _ _ _ _)

theorem E_kara9 (k : Nat) (o : Nat) (i : Nat) (s : KM) : E (Saber.Leak.M0.kara9 k o i s) (Saber.M0.kara9 k o i s) := by
  unfold Saber.Leak.M0.kara9 Saber.M0.kara9
  repeat estep
macro_rules | `(tactic| estep) => `(tactic| with_reducible exact Saber.Leak.M0.E_kara9 _ _ _ _)

theorem E_kara9' (k : Nat) (o : Nat) (i : Nat) (s : KM) : E (Saber.Leak.M0.kara9' k o i s) (Saber.M0.kara9' k o i s) := by
  unfold Saber.Leak.M0.kara9' Saber.M0.kara9'
  repeat estep
macro_rules | `(tactic| estep) => `(tactic| with_reducible exact Saber.Leak.M0.E_kara9' _ _ _ _)

theorem E_kara10 (k : Nat) (o : Nat) (i : Nat) (s : KM) : E (Saber.Leak.M0.kara10 k o i s) (Saber.M0.kara10 k o i s) := by
  unfold Saber.Leak.M0.kara10 Saber.M0.kara10
  repeat estep
macro_rules | `(tactic| estep) => `(tactic| with_reducible exact Saber.Leak.M0.E_kara10 _ _ _ _)

theorem E_kara10' (k : Nat) (o : Nat) (i : Nat) (s : KM) : E (Saber.Leak.M0.kara10' k o i s) (Saber.M0.kara10' k o i s) := by
  unfold Saber.Leak.M0.kara10' Saber.M0.kara10'
  repeat estep
macro_rules | `(tactic| estep) => `(tactic| with_reducible exact Saber.Leak.M0.E_kara10' _ _ _ _)

theorem E_kara (k : Nat) (leaf : LLeaf) (leaf' : Leaf) (hl : ∀ a ao b bo c co, E (leaf a ao b bo c co) (leaf' a ao b bo c co))
    (a : List (BitVec 16)) (ao : Nat) (b : List (BitVec 16)) (bo : Nat) (c : List (BitVec 16)) (co : Nat) : E (Saber.Leak.M0.kara k leaf a ao b bo c co) (Saber.M0.kara k leaf' a ao b bo c co) := by
  unfold Saber.Leak.M0.kara Saber.M0.kara
  repeat first | exact hl _ _ _ _ _ _ | estep

theorem E_unrolled_kara_mem_bottom (mac : Mac) (a : List (BitVec 16)) (ao : Nat) (b : List (BitVec 16)) (bo : Nat) (c : List (BitVec 16)) (co : Nat) :
    E (Saber.Leak.M0.unrolled_kara_mem_bottom mac a ao b bo c co) (Saber.M0.unrolled_kara_mem_bottom mac a ao b bo c co) := by
  exact E_kara 32 _ _ (E_school_book_mul2_16 mac) a ao b bo c co
macro_rules | `(tactic| estep) => `(tactic| with_reducible exact Saber.Leak.M0.E_unrolled_kara_mem_bottom _ _ _ _ _ _ _)

theorem E_unrolled_kara_mem_top (mac : Mac) (a : List (BitVec 16)) (ao : Nat) (b : List (BitVec 16)) (bo : Nat) (c : List (BitVec 16)) (co : Nat) :
    E (Saber.Leak.M0.unrolled_kara_mem_top mac a ao b bo c co) (Saber.M0.unrolled_kara_mem_top mac a ao b bo c co) := by
  exact E_kara 128 _ _ (E_unrolled_kara_mem_bottom mac) a ao b bo c co
macro_rules | `(tactic| estep) => `(tactic| with_reducible exact Saber.Leak.M0.E_unrolled_kara_mem_top _ _ _ _ _ _ _)

theorem E_pol_mul (mac : Mac) (a : List (BitVec 16)) (b : List (BitVec 16)) (res : List (BitVec 16)) : E (Saber.Leak.M0.pol_mul mac a b res) (Saber.M0.pol_mul mac a b res) := by
  unfold Saber.Leak.M0.pol_mul Saber.M0.pol_mul
  repeat estep
macro_rules | `(tactic| estep) => `(tactic| with_reducible exact Saber.Leak.M0.E_pol_mul _ _ _ _)

theorem E_load_littleendian (x : List Byte) (off : Nat) (bytes : Nat) : E (Saber.Leak.M0.load_littleendian x off bytes) (Saber.M0.load_littleendian x off bytes) := by
  unfold Saber.Leak.M0.load_littleendian Saber.M0.load_littleendian
  repeat estep
macro_rules | `(tactic| estep) => `(tactic| with_reducible exact Saber.Leak.M0.E_load_littleendian _ _ _)

theorem E_cbd (poly_start_index : Nat) (r : List (BitVec 16)) (use_bytes : Nat) (buf : List Byte) (off : Nat) : E (Saber.Leak.M0.cbd poly_start_index r use_bytes buf off) (Saber.M0.cbd poly_start_index r use_bytes buf off) := by
  unfold Saber.Leak.M0.cbd Saber.M0.cbd
  repeat estep
macro_rules | `(tactic| estep) => `(tactic| with_reducible exact Saber.Leak.M0.E_cbd _ _ _ _ _)

theorem E_shiftBuf (n : Nat) (buf : List Byte) : E (Saber.Leak.M0.shiftBuf n buf) (Saber.M0.shiftBuf n buf) := by
  unfold Saber.Leak.M0.shiftBuf Saber.M0.shiftBuf
  repeat estep
macro_rules | `(tactic| estep) => `(tactic| with_reducible exact Saber.Leak.M0.E_shiftBuf _ _)

theorem E_GenSecret [LPermute] [StatePermute] [Erases] (r : List (List (BitVec 16))) (seed : List Byte) (seedOff : Nat) : E (Saber.Leak.M0.GenSecret r seed seedOff) (Saber.M0.GenSecret r seed seedOff) := by
  unfold Saber.Leak.M0.GenSecret Saber.M0.GenSecret
  repeat estep
macro_rules | `(tactic| estep) => `(tactic| with_reducible exact Saber.Leak.M0.E_GenSecret _ _ _)

theorem E_extract (a : BitVec 16) (scale_data : BitVec 16) : E (Saber.Leak.M0.extract a scale_data) (Saber.M0.extract a scale_data) := by
  unfold Saber.Leak.M0.extract Saber.M0.extract
  repeat estep
macro_rules | `(tactic| estep) => `(tactic| with_reducible exact Saber.Leak.M0.E_extract _ _)

theorem E_GenCipherText (vprime : List (BitVec 16)) (scl_c : List Byte) : E (Saber.Leak.M0.GenCipherText vprime scl_c) (Saber.M0.GenCipherText vprime scl_c) := by
  unfold Saber.Leak.M0.GenCipherText Saber.M0.GenCipherText
  repeat estep
macro_rules | `(tactic| estep) => `(tactic| with_reducible exact Saber.Leak.M0.E_GenCipherText _ _)

theorem E_st16 (m : List Byte) (i : Nat) (v : BitVec 16) : E (Saber.Leak.M0.st16 m i v) (Saber.M0.st16 m i v) := by
  unfold Saber.Leak.M0.st16 Saber.M0.st16
  repeat estep
macro_rules | `(tactic| estep) => `(tactic| with_reducible exact Saber.Leak.M0.E_st16 _ _ _)

theorem E_ExtractKeyBits (scale_data : List (BitVec 16)) (scale_ar : List Byte) (scaleOff : Nat) (m : List Byte) : E (Saber.Leak.M0.ExtractKeyBits scale_data scale_ar scaleOff m) (Saber.M0.ExtractKeyBits scale_data scale_ar scaleOff m) := by
  unfold Saber.Leak.M0.ExtractKeyBits Saber.M0.ExtractKeyBits
  repeat estep
macro_rules | `(tactic| estep) => `(tactic| with_reducible exact Saber.Leak.M0.E_ExtractKeyBits _ _ _ _)

theorem E_byte_bank2pol_part (bytes : List Byte) (pol_part : List (BitVec 16)) (start : Nat) (num_8coeff : Nat) : E (Saber.Leak.M0.byte_bank2pol_part bytes pol_part start num_8coeff) (Saber.M0.byte_bank2pol_part bytes pol_part start num_8coeff) := by
  unfold Saber.Leak.M0.byte_bank2pol_part Saber.M0.byte_bank2pol_part
  repeat estep
macro_rules | `(tactic| estep) => `(tactic| with_reducible exact Saber.Leak.M0.E_byte_bank2pol_part _ _ _ _)

section Linked
variable [LPermute] [StatePermute] [Erases]

theorem E_gmStep (a : List (BitVec 16)) (g : GS) : E (Saber.Leak.M0.gmStep a g) (Saber.M0.gmStep a g) := by
  unfold Saber.Leak.M0.gmStep Saber.M0.gmStep
  repeat estep
macro_rules | `(tactic| estep) => `(tactic| with_reducible exact Saber.Leak.M0.E_gmStep _ _)

theorem E_gmLoop (a : List (BitVec 16)) (g : GS) : E (Saber.Leak.M0.gmLoop a g) (Saber.M0.gmLoop a g) := by
  induction hn : 256 - g.start using Nat.strongRecOn generalizing a g with
  | _ n ih =>
    rw [Saber.Leak.M0.gmLoop, Saber.M0.gmLoop]
    refine E.bind (E_gmStep a g) ?_
    rintro ⟨a, g'⟩
    refine E.branch _ ?_
    by_cases h1 : g'.start > 255
    · simp only [h1, dif_pos]
      exact E.pure _
    · by_cases h2 : g.start < g'.start
      · simp only [h1, h2, dif_pos, dif_neg, not_false_eq_true]
        exact ih _ (by omega) a g' rfl
      · simp only [h1, h2, dif_neg, not_false_eq_true]
        exact E.lift _
macro_rules | `(tactic| estep) => `(tactic| with_reducible exact Saber.Leak.M0.E_gmLoop _ _)

theorem E_GenMatrix_poly (temp_ar : List (BitVec 16)) (seed : List Byte) (seedOff : Nat) (poly_number : Nat) (g : GS) : E (Saber.Leak.M0.GenMatrix_poly temp_ar seed seedOff poly_number g) (Saber.M0.GenMatrix_poly temp_ar seed seedOff poly_number g) := by
  unfold Saber.Leak.M0.GenMatrix_poly Saber.M0.GenMatrix_poly
  repeat estep
macro_rules | `(tactic| estep) => `(tactic| with_reducible exact Saber.Leak.M0.E_GenMatrix_poly _ _ _ _ _)

theorem E_roundRow (r : List (BitVec 16)) : E (Saber.Leak.M0.roundRow r) (Saber.M0.roundRow r) := by
  unfold Saber.Leak.M0.roundRow Saber.M0.roundRow
  repeat estep
macro_rules | `(tactic| estep) => `(tactic| with_reducible exact Saber.Leak.M0.E_roundRow _)

theorem E_MatrixVectorMul_keypair (mac : Mac) (seed : List Byte) (skpv : List (List (BitVec 16))) (res : List (List (BitVec 16))) (gs : GS) : E (Saber.Leak.M0.MatrixVectorMul_keypair mac seed skpv res gs) (Saber.M0.MatrixVectorMul_keypair mac seed skpv res gs) := by
  unfold Saber.Leak.M0.MatrixVectorMul_keypair Saber.M0.MatrixVectorMul_keypair
  repeat estep
macro_rules | `(tactic| estep) => `(tactic| with_reducible exact Saber.Leak.M0.E_MatrixVectorMul_keypair _ _ _ _ _)

theorem E_MatrixVectorMul_encryption (mac : Mac) (seed : List Byte) (skpv : List (List (BitVec 16))) (ciphertext : List Byte) (gs : GS) : E (Saber.Leak.M0.MatrixVectorMul_encryption mac seed skpv ciphertext gs) (Saber.M0.MatrixVectorMul_encryption mac seed skpv ciphertext gs) := by
  unfold Saber.Leak.M0.MatrixVectorMul_encryption Saber.M0.MatrixVectorMul_encryption
  repeat estep
macro_rules | `(tactic| estep) => `(tactic| with_reducible exact Saber.Leak.M0.E_MatrixVectorMul_encryption _ _ _ _ _)

theorem E_VectorMul (mac : Mac) (byte_array : List Byte) (off : Nat) (skpv : List (List (BitVec 16))) (res : List (BitVec 16)) : E (Saber.Leak.M0.VectorMul mac byte_array off skpv res) (Saber.M0.VectorMul mac byte_array off skpv res) := by
  unfold Saber.Leak.M0.VectorMul Saber.M0.VectorMul
  repeat estep
macro_rules | `(tactic| estep) => `(tactic| with_reducible exact Saber.Leak.M0.E_VectorMul _ _ _ _ _)

theorem E_maskVec (v : List (List (BitVec 16))) : E (Saber.Leak.M0.maskVec v) (Saber.M0.maskVec v) := by
  unfold Saber.Leak.M0.maskVec Saber.M0.maskVec
  repeat estep
macro_rules | `(tactic| estep) => `(tactic| with_reducible exact Saber.Leak.M0.E_maskVec _)

theorem E_indcpa_kem_keypair {σ : Type} (mac : Mac) (rb : RandomBytes σ) (gs : GS) (pk : List Byte) (sk : List Byte) (st : σ) : E (Saber.Leak.M0.indcpa_kem_keypair mac rb gs pk sk st) (Saber.M0.indcpa_kem_keypair mac rb gs pk sk st) := by
  unfold Saber.Leak.M0.indcpa_kem_keypair Saber.M0.indcpa_kem_keypair
  repeat estep
macro_rules | `(tactic| estep) => `(tactic| with_reducible exact Saber.Leak.M0.E_indcpa_kem_keypair _ _ _ _ _ _)

theorem E_addMsg (m : List Byte) (mOff : Nat) (vprime : List (BitVec 16)) : E (Saber.Leak.M0.addMsg m mOff vprime) (Saber.M0.addMsg m mOff vprime) := by
  unfold Saber.Leak.M0.addMsg Saber.M0.addMsg
  repeat estep
macro_rules | `(tactic| estep) => `(tactic| with_reducible exact Saber.Leak.M0.E_addMsg _ _ _)

theorem E_indcpa_kem_enc (mac : Mac) (gs : GS) (m : List Byte) (mOff : Nat) (noiseseed : List Byte) (seedOff : Nat) (pk : List Byte) (pkOff : Nat) (ciphertext : List Byte) : E (Saber.Leak.M0.indcpa_kem_enc mac gs m mOff noiseseed seedOff pk pkOff ciphertext) (Saber.M0.indcpa_kem_enc mac gs m mOff noiseseed seedOff pk pkOff ciphertext) := by
  unfold Saber.Leak.M0.indcpa_kem_enc Saber.M0.indcpa_kem_enc
  repeat estep
macro_rules | `(tactic| estep) => `(tactic| with_reducible exact Saber.Leak.M0.E_indcpa_kem_enc _ _ _ _ _ _ _ _ _)

theorem E_indcpa_kem_dec (mac : Mac) (sk : List Byte) (ciphertext : List Byte) (message_dec : List Byte) : E (Saber.Leak.M0.indcpa_kem_dec mac sk ciphertext message_dec) (Saber.M0.indcpa_kem_dec mac sk ciphertext message_dec) := by
  unfold Saber.Leak.M0.indcpa_kem_dec Saber.M0.indcpa_kem_dec
  repeat estep
macro_rules | `(tactic| estep) => `(tactic| with_reducible exact Saber.Leak.M0.E_indcpa_kem_dec _ _ _ _)

theorem E_verify (a : List Byte) (aOff : Nat) (b : List Byte) (bOff : Nat) (len : Nat) : E (Saber.Leak.M0.verify a aOff b bOff len) (Saber.M0.verify a aOff b bOff len) := by
  unfold Saber.Leak.M0.verify Saber.M0.verify
  repeat estep
macro_rules | `(tactic| estep) => `(tactic| with_reducible exact Saber.Leak.M0.E_verify _ _ _ _ _)

theorem E_cmov (r : List Byte) (rOff : Nat) (x : List Byte) (xOff : Nat) (len : Nat) (b : Byte) : E (Saber.Leak.M0.cmov r rOff x xOff len b) (Saber.M0.cmov r rOff x xOff len b) := by
  unfold Saber.Leak.M0.cmov Saber.M0.cmov
  repeat estep
macro_rules | `(tactic| estep) => `(tactic| with_reducible exact Saber.Leak.M0.E_cmov _ _ _ _ _ _)

theorem E_crypto_kem_keypair {σ : Type} (mac : Mac) (rb : RandomBytes σ) (gs : GS) (pk : List Byte) (sk : List Byte) (st : σ) : E (Saber.Leak.M0.crypto_kem_keypair mac rb gs pk sk st) (Saber.M0.crypto_kem_keypair mac rb gs pk sk st) := by
  unfold Saber.Leak.M0.crypto_kem_keypair Saber.M0.crypto_kem_keypair
  repeat estep
macro_rules | `(tactic| estep) => `(tactic| with_reducible exact Saber.Leak.M0.E_crypto_kem_keypair _ _ _ _ _ _)

theorem E_crypto_kem_enc {σ : Type} (mac : Mac) (rb : RandomBytes σ) (gs : GS) (c : List Byte) (k : List Byte) (pk : List Byte) (st : σ) : E (Saber.Leak.M0.crypto_kem_enc mac rb gs c k pk st) (Saber.M0.crypto_kem_enc mac rb gs c k pk st) := by
  unfold Saber.Leak.M0.crypto_kem_enc Saber.M0.crypto_kem_enc
  repeat estep
macro_rules | `(tactic| estep) => `(tactic| with_reducible exact Saber.Leak.M0.E_crypto_kem_enc _ _ _ _ _ _ _)

theorem E_crypto_kem_dec (mac : Mac) (gs : GS) (k : List Byte) (c : List Byte) (sk : List Byte) : E (Saber.Leak.M0.crypto_kem_dec mac gs k c sk) (Saber.M0.crypto_kem_dec mac gs k c sk) := by
  unfold Saber.Leak.M0.crypto_kem_dec Saber.M0.crypto_kem_dec
  repeat estep
macro_rules | `(tactic| estep) => `(tactic| with_reducible exact Saber.Leak.M0.E_crypto_kem_dec _ _ _ _ _)

end Linked

end Saber.Leak.M0
