import Verif.Model.Leak.U
import Verif.Proof.Leak.Erase
/-! # uSaber and 90s: leaving out the events gives the model -/
set_option linter.unusedSectionVars false

namespace Saber.Leak.U
open Saber.U

namespace Aes
open Saber.U.Aes

theorem E_br_dec32le (src : List Byte) (off : Nat) : E (Saber.Leak.U.Aes.br_dec32le src off) (Saber.U.Aes.br_dec32le src off) := by
  unfold Saber.Leak.U.Aes.br_dec32le Saber.U.Aes.br_dec32le
  repeat estep
macro_rules | `(tactic| estep) => `(tactic| with_reducible exact Saber.Leak.U.Aes.E_br_dec32le _ _)

theorem E_br_range_dec32le (v : List (BitVec 32)) (num : Nat) (src : List Byte) (off : Nat) : E (Saber.Leak.U.Aes.br_range_dec32le v num src off) (Saber.U.Aes.br_range_dec32le v num src off) := by
  unfold Saber.Leak.U.Aes.br_range_dec32le Saber.U.Aes.br_range_dec32le
  repeat estep
macro_rules | `(tactic| estep) => `(tactic| with_reducible exact Saber.Leak.U.Aes.E_br_range_dec32le _ _ _ _)

theorem E_br_enc32le (dst : List Byte) (off : Nat) (x : BitVec 32) : E (Saber.Leak.U.Aes.br_enc32le dst off x) (Saber.U.Aes.br_enc32le dst off x) := by
  unfold Saber.Leak.U.Aes.br_enc32le Saber.U.Aes.br_enc32le
  repeat estep
macro_rules | `(tactic| estep) => `(tactic| with_reducible exact Saber.Leak.U.Aes.E_br_enc32le _ _ _)

theorem E_br_range_enc32le (dst : List Byte) (off : Nat) (v : List (BitVec 32)) (num : Nat) : E (Saber.Leak.U.Aes.br_range_enc32le dst off v num) (Saber.U.Aes.br_range_enc32le dst off v num) := by
  unfold Saber.Leak.U.Aes.br_range_enc32le Saber.U.Aes.br_range_enc32le
  repeat estep
macro_rules | `(tactic| estep) => `(tactic| with_reducible exact Saber.Leak.U.Aes.E_br_range_enc32le _ _ _ _)

theorem E_interleave_in (w : List (BitVec 32)) (off : Nat) : E (Saber.Leak.U.Aes.interleave_in w off) (Saber.U.Aes.interleave_in w off) := by
  unfold Saber.Leak.U.Aes.interleave_in Saber.U.Aes.interleave_in
  repeat estep
macro_rules | `(tactic| estep) => `(tactic| with_reducible exact Saber.Leak.U.Aes.E_interleave_in _ _)

theorem E_interleave_out (w : List (BitVec 32)) (off : Nat) (q0 : BitVec 64) (q1 : BitVec 64) : E (Saber.Leak.U.Aes.interleave_out w off q0 q1) (Saber.U.Aes.interleave_out w off q0 q1) := by
  unfold Saber.Leak.U.Aes.interleave_out Saber.U.Aes.interleave_out
  repeat estep
macro_rules | `(tactic| estep) => `(tactic| with_reducible exact Saber.Leak.U.Aes.E_interleave_out _ _ _ _)

theorem E_keyTmp (s : Saber.U.Aes.KS) : E (Saber.Leak.U.Aes.keyTmp s) (Saber.U.Aes.keyTmp s) := by
  unfold Saber.Leak.U.Aes.keyTmp Saber.U.Aes.keyTmp
  refine E.branch _ (E.ite ?_ (E.branch _ (E.ite ?_ ?_)))
  all_goals repeat estep
macro_rules | `(tactic| estep) => `(tactic| with_reducible exact Saber.Leak.U.Aes.E_keyTmp _)

theorem E_keyStep (i : Nat) (s : Saber.U.Aes.KS) : E (Saber.Leak.U.Aes.keyStep i s) (Saber.U.Aes.keyStep i s) := by
  unfold Saber.Leak.U.Aes.keyStep Saber.U.Aes.keyStep
  repeat estep
macro_rules | `(tactic| estep) => `(tactic| with_reducible exact Saber.Leak.U.Aes.E_keyStep _ _)

theorem E_keyComp (skey : List (BitVec 32)) (n : Nat) (comp : List (BitVec 64)) : E (Saber.Leak.U.Aes.keyComp skey n comp) (Saber.U.Aes.keyComp skey n comp) := by
  unfold Saber.Leak.U.Aes.keyComp Saber.U.Aes.keyComp
  repeat estep
macro_rules | `(tactic| estep) => `(tactic| with_reducible exact Saber.Leak.U.Aes.E_keyComp _ _ _)

theorem E_keysched (comp_skey : List (BitVec 64)) (key : List Byte) (keyOff : Nat) : E (Saber.Leak.U.Aes.keysched comp_skey key keyOff) (Saber.U.Aes.keysched comp_skey key keyOff) := by
  unfold Saber.Leak.U.Aes.keysched Saber.U.Aes.keysched
  repeat estep
macro_rules | `(tactic| estep) => `(tactic| with_reducible exact Saber.Leak.U.Aes.E_keysched _ _ _)

theorem E_expandStep (comp_skey : List (BitVec 64)) (u : Nat) (skey : List (BitVec 64)) : E (Saber.Leak.U.Aes.expandStep comp_skey u skey) (Saber.U.Aes.expandStep comp_skey u skey) := by
  unfold Saber.Leak.U.Aes.expandStep Saber.U.Aes.expandStep
  repeat estep
macro_rules | `(tactic| estep) => `(tactic| with_reducible exact Saber.Leak.U.Aes.E_expandStep _ _ _)

theorem E_skey_expand (skey : List (BitVec 64)) (comp_skey : List (BitVec 64)) : E (Saber.Leak.U.Aes.skey_expand skey comp_skey) (Saber.U.Aes.skey_expand skey comp_skey) := by
  unfold Saber.Leak.U.Aes.skey_expand Saber.U.Aes.skey_expand
  repeat estep
macro_rules | `(tactic| estep) => `(tactic| with_reducible exact Saber.Leak.U.Aes.E_skey_expand _ _)

theorem E_add_round_key (q : Q (BitVec 64)) (sk : List (BitVec 64)) (off : Nat) : E (Saber.Leak.U.Aes.add_round_key q sk off) (Saber.U.Aes.add_round_key q sk off) := by
  unfold Saber.Leak.U.Aes.add_round_key Saber.U.Aes.add_round_key
  repeat estep
macro_rules | `(tactic| estep) => `(tactic| with_reducible exact Saber.Leak.U.Aes.E_add_round_key _ _ _)

theorem E_inc4_be (ivw : List (BitVec 32)) (i : Nat) : E (Saber.Leak.U.Aes.inc4_be ivw i) (Saber.U.Aes.inc4_be ivw i) := by
  unfold Saber.Leak.U.Aes.inc4_be Saber.U.Aes.inc4_be
  repeat estep
macro_rules | `(tactic| estep) => `(tactic| with_reducible exact Saber.Leak.U.Aes.E_inc4_be _ _)

theorem E_aesRound (sk_exp : List (BitVec 64)) (i : Nat) (q : Q (BitVec 64)) : E (Saber.Leak.U.Aes.aesRound sk_exp i q) (Saber.U.Aes.aesRound sk_exp i q) := by
  unfold Saber.Leak.U.Aes.aesRound Saber.U.Aes.aesRound
  repeat estep
macro_rules | `(tactic| estep) => `(tactic| with_reducible exact Saber.Leak.U.Aes.E_aesRound _ _ _)

theorem E_aes_ctr4x (out : List Byte) (outOff : Nat) (ivw : List (BitVec 32)) (sk_exp : List (BitVec 64)) : E (Saber.Leak.U.Aes.aes_ctr4x out outOff ivw sk_exp) (Saber.U.Aes.aes_ctr4x out outOff ivw sk_exp) := by
  unfold Saber.Leak.U.Aes.aes_ctr4x Saber.U.Aes.aes_ctr4x
  repeat estep
macro_rules | `(tactic| estep) => `(tactic| with_reducible exact Saber.Leak.U.Aes.E_aes_ctr4x _ _ _ _)

theorem E_ctr_init (sk_exp : List (BitVec 64)) (key : List Byte) (keyOff : Nat) : E (Saber.Leak.U.Aes.ctr_init sk_exp key keyOff) (Saber.U.Aes.ctr_init sk_exp key keyOff) := by
  unfold Saber.Leak.U.Aes.ctr_init Saber.U.Aes.ctr_init
  repeat estep
macro_rules | `(tactic| estep) => `(tactic| with_reducible exact Saber.Leak.U.Aes.E_ctr_init _ _ _)

theorem E_ctrLoop (sk_exp : List (BitVec 64)) (ivw : List (BitVec 32)) (data : List Byte) (off len : Nat) :
    E (Saber.Leak.U.Aes.ctrLoop sk_exp ivw data off len) (Saber.U.Aes.ctrLoop sk_exp ivw data off len) := by
  induction len using Nat.strongRecOn generalizing ivw data off with
  | _ len ih =>
    rw [Saber.Leak.U.Aes.ctrLoop, Saber.U.Aes.ctrLoop]
    refine E.branch _ ?_
    by_cases h : 64 < len
    · rw [if_pos h, if_pos h]
      refine E.bind (E_aes_ctr4x _ _ _ _) ?_
      rintro ⟨data, ivw⟩
      exact ih (len - 64) (by omega) ivw data (off + 64)
    · rw [if_neg h, if_neg h]
      refine E.branch _ (E.ite ?_ ?_)
      all_goals repeat estep
macro_rules | `(tactic| estep) => `(tactic| with_reducible exact Saber.Leak.U.Aes.E_ctrLoop _ _ _ _ _)

theorem E_ivInit (ivw : List (BitVec 32)) (iv : List Byte) (ivOff : Nat) (cc : BitVec 32) : E (Saber.Leak.U.Aes.ivInit ivw iv ivOff cc) (Saber.U.Aes.ivInit ivw iv ivOff cc) := by
  unfold Saber.Leak.U.Aes.ivInit Saber.U.Aes.ivInit
  repeat estep
macro_rules | `(tactic| estep) => `(tactic| with_reducible exact Saber.Leak.U.Aes.E_ivInit _ _ _ _)

theorem E_ctr_run (sk_exp : List (BitVec 64)) (iv : List Byte) (ivOff : Nat) (cc : BitVec 32) (data : List Byte) (off : Nat) (len : Nat) : E (Saber.Leak.U.Aes.ctr_run sk_exp iv ivOff cc data off len) (Saber.U.Aes.ctr_run sk_exp iv ivOff cc data off len) := by
  unfold Saber.Leak.U.Aes.ctr_run Saber.U.Aes.ctr_run
  repeat estep
macro_rules | `(tactic| estep) => `(tactic| with_reducible exact Saber.Leak.U.Aes.E_ctr_run _ _ _ _ _ _ _)

theorem E_aes256ctr_prf (out : List Byte) (outOff : Nat) (outlen : Nat) (key : List Byte) (keyOff : Nat) (nonce : List Byte) (nonceOff : Nat) : E (Saber.Leak.U.Aes.aes256ctr_prf out outOff outlen key keyOff nonce nonceOff) (Saber.U.Aes.aes256ctr_prf out outOff outlen key keyOff nonce nonceOff) := by
  unfold Saber.Leak.U.Aes.aes256ctr_prf Saber.U.Aes.aes256ctr_prf
  repeat estep
macro_rules | `(tactic| estep) => `(tactic| with_reducible exact Saber.Leak.U.Aes.E_aes256ctr_prf _ _ _ _ _ _ _)

theorem E_aes256ctr_init (s : Ctx) (key : List Byte) (keyOff : Nat) (nonce : List Byte) (nonceOff : Nat) : E (Saber.Leak.U.Aes.aes256ctr_init s key keyOff nonce nonceOff) (Saber.U.Aes.aes256ctr_init s key keyOff nonce nonceOff) := by
  unfold Saber.Leak.U.Aes.aes256ctr_init Saber.U.Aes.aes256ctr_init
  repeat estep
macro_rules | `(tactic| estep) => `(tactic| with_reducible exact Saber.Leak.U.Aes.E_aes256ctr_init _ _ _ _ _)

theorem E_aes256ctr_squeezeblocks (out : List Byte) (outOff : Nat) (nblocks : Nat) (s : Ctx) : E (Saber.Leak.U.Aes.aes256ctr_squeezeblocks out outOff nblocks s) (Saber.U.Aes.aes256ctr_squeezeblocks out outOff nblocks s) := by
  unfold Saber.Leak.U.Aes.aes256ctr_squeezeblocks Saber.U.Aes.aes256ctr_squeezeblocks
  repeat estep
macro_rules | `(tactic| estep) => `(tactic| with_reducible exact Saber.Leak.U.Aes.E_aes256ctr_squeezeblocks _ _ _ _)

end Aes

namespace Sha256
open Saber.U.Sha256

theorem E_load_bigendian (x : List Byte) (off : Nat) : E (Saber.Leak.U.Sha256.load_bigendian x off) (Saber.U.Sha256.load_bigendian x off) := by
  unfold Saber.Leak.U.Sha256.load_bigendian Saber.U.Sha256.load_bigendian
  repeat estep
macro_rules | `(tactic| estep) => `(tactic| with_reducible exact Saber.Leak.U.Sha256.E_load_bigendian _ _)

theorem E_store_bigendian (x : List Byte) (off : Nat) (u : BitVec 32) : E (Saber.Leak.U.Sha256.store_bigendian x off u) (Saber.U.Sha256.store_bigendian x off u) := by
  unfold Saber.Leak.U.Sha256.store_bigendian Saber.U.Sha256.store_bigendian
  repeat estep
macro_rules | `(tactic| estep) => `(tactic| with_reducible exact Saber.Leak.U.Sha256.E_store_bigendian _ _ _)

theorem E_block (v : V) (inp : List Byte) (off : Nat) : E (Saber.Leak.U.Sha256.block v inp off) (Saber.U.Sha256.block v inp off) := by
  unfold Saber.Leak.U.Sha256.block Saber.U.Sha256.block
  repeat estep
macro_rules | `(tactic| estep) => `(tactic| with_reducible exact Saber.Leak.U.Sha256.E_block _ _ _)

theorem E_blockLoop (v : V) (inp : List Byte) (off inlen : Nat) :
    E (Saber.Leak.U.Sha256.blockLoop v inp off inlen) (Saber.U.Sha256.blockLoop v inp off inlen) := by
  induction inlen using Nat.strongRecOn generalizing v off with
  | _ inlen ih =>
    rw [Saber.Leak.U.Sha256.blockLoop, Saber.U.Sha256.blockLoop]
    refine E.branch _ ?_
    by_cases h : 64 ≤ inlen
    · rw [if_pos h, if_pos h]
      exact E.bind (E_block _ _ _) fun v => ih (inlen - 64) (by omega) v (off + 64)
    · rw [if_neg h, if_neg h]
      exact E.pure _
macro_rules | `(tactic| estep) => `(tactic| with_reducible exact Saber.Leak.U.Sha256.E_blockLoop _ _ _ _)

theorem E_blocks (statebytes : List Byte) (inp : List Byte) (inOff : Nat) (inlen : Nat) : E (Saber.Leak.U.Sha256.blocks statebytes inp inOff inlen) (Saber.U.Sha256.blocks statebytes inp inOff inlen) := by
  unfold Saber.Leak.U.Sha256.blocks Saber.U.Sha256.blocks
  repeat estep
macro_rules | `(tactic| estep) => `(tactic| with_reducible exact Saber.Leak.U.Sha256.E_blocks _ _ _ _)

end Sha256

theorem E_sha256 (out : List Byte) (outOff : Nat) (inp : List Byte) (inOff : Nat) (inlen : Nat) : E (Saber.Leak.U.sha256 out outOff inp inOff inlen) (Saber.U.sha256 out outOff inp inOff inlen) := by
  unfold Saber.Leak.U.sha256 Saber.U.sha256
  repeat estep
macro_rules | `(tactic| estep) => `(tactic| with_reducible exact Saber.Leak.U.E_sha256 _ _ _ _ _)

namespace Sha512
open Saber.U.Sha512

theorem E_load_bigendian (x : List Byte) (off : Nat) : E (Saber.Leak.U.Sha512.load_bigendian x off) (Saber.U.Sha512.load_bigendian x off) := by
  unfold Saber.Leak.U.Sha512.load_bigendian Saber.U.Sha512.load_bigendian
  repeat estep
macro_rules | `(tactic| estep) => `(tactic| with_reducible exact Saber.Leak.U.Sha512.E_load_bigendian _ _)

theorem E_store_bigendian (x : List Byte) (off : Nat) (u : BitVec 64) : E (Saber.Leak.U.Sha512.store_bigendian x off u) (Saber.U.Sha512.store_bigendian x off u) := by
  unfold Saber.Leak.U.Sha512.store_bigendian Saber.U.Sha512.store_bigendian
  repeat estep
macro_rules | `(tactic| estep) => `(tactic| with_reducible exact Saber.Leak.U.Sha512.E_store_bigendian _ _ _)

theorem E_block (v : V) (inp : List Byte) (off : Nat) : E (Saber.Leak.U.Sha512.block v inp off) (Saber.U.Sha512.block v inp off) := by
  unfold Saber.Leak.U.Sha512.block Saber.U.Sha512.block
  repeat estep
macro_rules | `(tactic| estep) => `(tactic| with_reducible exact Saber.Leak.U.Sha512.E_block _ _ _)

theorem E_blockLoop (v : V) (inp : List Byte) (off inlen : Nat) :
    E (Saber.Leak.U.Sha512.blockLoop v inp off inlen) (Saber.U.Sha512.blockLoop v inp off inlen) := by
  induction inlen using Nat.strongRecOn generalizing v off with
  | _ inlen ih =>
    rw [Saber.Leak.U.Sha512.blockLoop, Saber.U.Sha512.blockLoop]
    refine E.branch _ ?_
    by_cases h : 128 ≤ inlen
    · rw [if_pos h, if_pos h]
      exact E.bind (E_block _ _ _) fun v => ih (inlen - 128) (by omega) v (off + 128)
    · rw [if_neg h, if_neg h]
      exact E.pure _
macro_rules | `(tactic| estep) => `(tactic| with_reducible exact Saber.Leak.U.Sha512.E_blockLoop _ _ _ _)

theorem E_blocks (statebytes : List Byte) (inp : List Byte) (inOff : Nat) (inlen : Nat) : E (Saber.Leak.U.Sha512.blocks statebytes inp inOff inlen) (Saber.U.Sha512.blocks statebytes inp inOff inlen) := by
  unfold Saber.Leak.U.Sha512.blocks Saber.U.Sha512.blocks
  repeat estep
macro_rules | `(tactic| estep) => `(tactic| with_reducible exact Saber.Leak.U.Sha512.E_blocks _ _ _ _)

end Sha512

theorem E_sha512 (out : List Byte) (outOff : Nat) (inp : List Byte) (inOff : Nat) (inlen : Nat) : E (Saber.Leak.U.sha512 out outOff inp inOff inlen) (Saber.U.sha512 out outOff inp inOff inlen) := by
  unfold Saber.Leak.U.sha512 Saber.U.sha512
  repeat estep
macro_rules | `(tactic| estep) => `(tactic| with_reducible exact Saber.Leak.U.E_sha512 _ _ _ _ _)

theorem E_saber_aes256ctr_prf (output : List Byte) (outOff : Nat) (outlen : Nat) (input : List Byte) (inOff : Nat) : E (Saber.Leak.U.saber_aes256ctr_prf output outOff outlen input inOff) (Saber.U.saber_aes256ctr_prf output outOff outlen input inOff) := by
  unfold Saber.Leak.U.saber_aes256ctr_prf Saber.U.saber_aes256ctr_prf
  repeat estep
macro_rules | `(tactic| estep) => `(tactic| with_reducible exact Saber.Leak.U.E_saber_aes256ctr_prf _ _ _ _ _)

theorem E_prf (c : Cfg) (out : List Byte) (outOff : Nat) (outlen : Nat) (inp : List Byte) (inOff : Nat) (inlen : Nat) : E (Saber.Leak.U.prf c out outOff outlen inp inOff inlen) (Saber.U.prf c out outOff outlen inp inOff inlen) := by
  unfold Saber.Leak.U.prf Saber.U.prf
  repeat estep
macro_rules | `(tactic| estep) => `(tactic| with_reducible exact Saber.Leak.U.E_prf _ _ _ _ _ _ _)

theorem E_hash_h (c : Cfg) (out : List Byte) (outOff : Nat) (inp : List Byte) (inOff : Nat) (inlen : Nat) : E (Saber.Leak.U.hash_h c out outOff inp inOff inlen) (Saber.U.hash_h c out outOff inp inOff inlen) := by
  unfold Saber.Leak.U.hash_h Saber.U.hash_h
  repeat estep
macro_rules | `(tactic| estep) => `(tactic| with_reducible exact Saber.Leak.U.E_hash_h _ _ _ _ _ _)

theorem E_hash_g (c : Cfg) (out : List Byte) (outOff : Nat) (inp : List Byte) (inOff : Nat) (inlen : Nat) : E (Saber.Leak.U.hash_g c out outOff inp inOff inlen) (Saber.U.hash_g c out outOff inp inOff inlen) := by
  unfold Saber.Leak.U.hash_g Saber.U.hash_g
  repeat estep
macro_rules | `(tactic| estep) => `(tactic| with_reducible exact Saber.Leak.U.E_hash_g _ _ _ _ _ _)

theorem E_POLq2BS_12 (bytes : List Byte) (off : Nat) (data : List (BitVec 16)) : E (Saber.Leak.U.POLq2BS_12 bytes off data) (Saber.U.POLq2BS_12 bytes off data) := by
  unfold Saber.Leak.U.POLq2BS_12 Saber.U.POLq2BS_12
  repeat estep
macro_rules | `(tactic| estep) => `(tactic| with_reducible exact Saber.Leak.U.E_POLq2BS_12 _ _ _)

theorem E_BS2POLq_12 (bytes : List Byte) (off : Nat) (data : List (BitVec 16)) : E (Saber.Leak.U.BS2POLq_12 bytes off data) (Saber.U.BS2POLq_12 bytes off data) := by
  unfold Saber.Leak.U.BS2POLq_12 Saber.U.BS2POLq_12
  repeat estep
macro_rules | `(tactic| estep) => `(tactic| with_reducible exact Saber.Leak.U.E_BS2POLq_12 _ _ _)

theorem E_POLq2BS (c : Cfg) (bytes : List Byte) (off : Nat) (data : List (BitVec 16)) : E (Saber.Leak.U.POLq2BS c bytes off data) (Saber.U.POLq2BS c bytes off data) := by
  unfold Saber.Leak.U.POLq2BS Saber.U.POLq2BS
  repeat estep
macro_rules | `(tactic| estep) => `(tactic| with_reducible exact Saber.Leak.U.E_POLq2BS _ _ _ _)

theorem E_BS2POLq (c : Cfg) (bytes : List Byte) (off : Nat) (data : List (BitVec 16)) : E (Saber.Leak.U.BS2POLq c bytes off data) (Saber.U.BS2POLq c bytes off data) := by
  unfold Saber.Leak.U.BS2POLq Saber.U.BS2POLq
  repeat estep
macro_rules | `(tactic| estep) => `(tactic| with_reducible exact Saber.Leak.U.E_BS2POLq _ _ _ _)

theorem E_POLVECq2BS (c : Cfg) (bytes : List Byte) (off : Nat) (data : List (List (BitVec 16))) : E (Saber.Leak.U.POLVECq2BS c bytes off data) (Saber.U.POLVECq2BS c bytes off data) := by
  unfold Saber.Leak.U.POLVECq2BS Saber.U.POLVECq2BS
  repeat estep
macro_rules | `(tactic| estep) => `(tactic| with_reducible exact Saber.Leak.U.E_POLVECq2BS _ _ _ _)

theorem E_BS2POLVECq (c : Cfg) (bytes : List Byte) (off : Nat) (data : List (List (BitVec 16))) : E (Saber.Leak.U.BS2POLVECq c bytes off data) (Saber.U.BS2POLVECq c bytes off data) := by
  unfold Saber.Leak.U.BS2POLVECq Saber.U.BS2POLVECq
  repeat estep
macro_rules | `(tactic| estep) => `(tactic| with_reducible exact Saber.Leak.U.E_BS2POLVECq _ _ _ _)

theorem E_GenMatrix (c : Cfg) (A : List (List (List (BitVec 16)))) (seed : List Byte) (seedOff : Nat) : E (Saber.Leak.U.GenMatrix c A seed seedOff) (Saber.U.GenMatrix c A seed seedOff) := by
  unfold Saber.Leak.U.GenMatrix Saber.U.GenMatrix
  repeat estep
macro_rules | `(tactic| estep) => `(tactic| with_reducible exact Saber.Leak.U.E_GenMatrix _ _ _ _)

theorem E_twoBits (b : Nat) (k : Nat) : E (Saber.Leak.U.twoBits b k) (Saber.U.twoBits b k) := by
  unfold Saber.Leak.U.twoBits Saber.U.twoBits
  repeat estep
macro_rules | `(tactic| estep) => `(tactic| with_reducible exact Saber.Leak.U.E_twoBits _ _)

theorem E_uniformRow (si : List (BitVec 16)) (buf : List Byte) (off : Nat) : E (Saber.Leak.U.uniformRow si buf off) (Saber.U.uniformRow si buf off) := by
  unfold Saber.Leak.U.uniformRow Saber.U.uniformRow
  repeat estep
macro_rules | `(tactic| estep) => `(tactic| with_reducible exact Saber.Leak.U.E_uniformRow _ _ _)

theorem E_secretRow (c : Cfg) (si : List (BitVec 16)) (buf : List Byte) (off : Nat) : E (Saber.Leak.U.secretRow c si buf off) (Saber.U.secretRow c si buf off) := by
  unfold Saber.Leak.U.secretRow Saber.U.secretRow
  repeat estep
macro_rules | `(tactic| estep) => `(tactic| with_reducible exact Saber.Leak.U.E_secretRow _ _ _ _)

theorem E_GenSecret (c : Cfg) (s : List (List (BitVec 16))) (seed : List Byte) (seedOff : Nat) : E (Saber.Leak.U.GenSecret c s seed seedOff) (Saber.U.GenSecret c s seed seedOff) := by
  unfold Saber.Leak.U.GenSecret Saber.U.GenSecret
  repeat estep
macro_rules | `(tactic| estep) => `(tactic| with_reducible exact Saber.Leak.U.E_GenSecret _ _ _ _)

theorem E_roundVec (c : Cfg) (b : List (List (BitVec 16))) : E (Saber.Leak.U.roundVec c b) (Saber.U.roundVec c b) := by
  unfold Saber.Leak.U.roundVec Saber.U.roundVec
  repeat estep
macro_rules | `(tactic| estep) => `(tactic| with_reducible exact Saber.Leak.U.E_roundVec _ _)

theorem E_indcpa_kem_keypair {σ : Type} (c : Cfg) (rb : RandomBytes σ) (pk : List Byte) (sk : List Byte) (st : σ) : E (Saber.Leak.U.indcpa_kem_keypair c rb pk sk st) (Saber.U.indcpa_kem_keypair c rb pk sk st) := by
  unfold Saber.Leak.U.indcpa_kem_keypair Saber.U.indcpa_kem_keypair
  repeat estep
macro_rules | `(tactic| estep) => `(tactic| with_reducible exact Saber.Leak.U.E_indcpa_kem_keypair _ _ _ _ _)

theorem E_encRound (c : Cfg) (vp : List (BitVec 16)) (mp : List (BitVec 16)) : E (Saber.Leak.U.encRound c vp mp) (Saber.U.encRound c vp mp) := by
  unfold Saber.Leak.U.encRound Saber.U.encRound
  repeat estep
macro_rules | `(tactic| estep) => `(tactic| with_reducible exact Saber.Leak.U.E_encRound _ _ _)

theorem E_indcpa_kem_enc (c : Cfg) (m : List Byte) (mOff : Nat) (seed_sp : List Byte) (seedOff : Nat) (pk : List Byte) (pkOff : Nat) (ciphertext : List Byte) : E (Saber.Leak.U.indcpa_kem_enc c m mOff seed_sp seedOff pk pkOff ciphertext) (Saber.U.indcpa_kem_enc c m mOff seed_sp seedOff pk pkOff ciphertext) := by
  unfold Saber.Leak.U.indcpa_kem_enc Saber.U.indcpa_kem_enc
  repeat estep
macro_rules | `(tactic| estep) => `(tactic| with_reducible exact Saber.Leak.U.E_indcpa_kem_enc _ _ _ _ _ _ _ _)

theorem E_decRound (c : Cfg) (v : List (BitVec 16)) (cm : List (BitVec 16)) : E (Saber.Leak.U.decRound c v cm) (Saber.U.decRound c v cm) := by
  unfold Saber.Leak.U.decRound Saber.U.decRound
  repeat estep
macro_rules | `(tactic| estep) => `(tactic| with_reducible exact Saber.Leak.U.E_decRound _ _ _)

theorem E_indcpa_kem_dec (c : Cfg) (sk : List Byte) (ciphertext : List Byte) (m : List Byte) : E (Saber.Leak.U.indcpa_kem_dec c sk ciphertext m) (Saber.U.indcpa_kem_dec c sk ciphertext m) := by
  unfold Saber.Leak.U.indcpa_kem_dec Saber.U.indcpa_kem_dec
  repeat estep
macro_rules | `(tactic| estep) => `(tactic| with_reducible exact Saber.Leak.U.E_indcpa_kem_dec _ _ _ _)

theorem E_crypto_kem_keypair {σ : Type} (cfg : Cfg) (rb : RandomBytes σ) (pk : List Byte) (sk : List Byte) (st : σ) : E (Saber.Leak.U.crypto_kem_keypair cfg rb pk sk st) (Saber.U.crypto_kem_keypair cfg rb pk sk st) := by
  unfold Saber.Leak.U.crypto_kem_keypair Saber.U.crypto_kem_keypair
  repeat estep
macro_rules | `(tactic| estep) => `(tactic| with_reducible exact Saber.Leak.U.E_crypto_kem_keypair _ _ _ _ _)

theorem E_crypto_kem_enc {σ : Type} (cfg : Cfg) (rb : RandomBytes σ) (c : List Byte) (k : List Byte) (pk : List Byte) (st : σ) : E (Saber.Leak.U.crypto_kem_enc cfg rb c k pk st) (Saber.U.crypto_kem_enc cfg rb c k pk st) := by
  unfold Saber.Leak.U.crypto_kem_enc Saber.U.crypto_kem_enc
  repeat estep
macro_rules | `(tactic| estep) => `(tactic| with_reducible exact Saber.Leak.U.E_crypto_kem_enc _ _ _ _ _ _)

theorem E_crypto_kem_dec (cfg : Cfg) (k : List Byte) (c : List Byte) (sk : List Byte) : E (Saber.Leak.U.crypto_kem_dec cfg k c sk) (Saber.U.crypto_kem_dec cfg k c sk) := by
  unfold Saber.Leak.U.crypto_kem_dec Saber.U.crypto_kem_dec
  repeat estep
macro_rules | `(tactic| estep) => `(tactic| with_reducible exact Saber.Leak.U.E_crypto_kem_dec _ _ _ _)

end Saber.Leak.U
