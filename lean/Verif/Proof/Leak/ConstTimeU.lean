import Verif.Model.Leak.U
import Verif.Proof.Leak.ConstTime
/-! # uSaber and 90s: the events do not depend on the data -/
set_option linter.unusedSectionVars false

namespace Saber.Leak.U
open Saber.U

namespace Aes
open Saber.U.Aes

theorem CT_br_dec32le (src : List Byte) (src' : List Byte) (off : Nat) :
    CT (Saber.Leak.U.Aes.br_dec32le src off) (Saber.Leak.U.Aes.br_dec32le src' off) := by
  unfold Saber.Leak.U.Aes.br_dec32le
  repeat ctstep
macro_rules | `(tactic| ctstep) => `(tactic| with_reducible exact Saber.Leak.U.Aes.CT_br_dec32le _ _ _)

theorem CT_br_range_dec32le (v : List (BitVec 32)) (v' : List (BitVec 32)) (num : Nat) (src : List Byte) (src' : List Byte) (off : Nat) :
    CT (Saber.Leak.U.Aes.br_range_dec32le v num src off) (Saber.Leak.U.Aes.br_range_dec32le v' num src' off) := by
  unfold Saber.Leak.U.Aes.br_range_dec32le
  repeat ctstep
macro_rules | `(tactic| ctstep) => `(tactic| with_reducible exact Saber.Leak.U.Aes.CT_br_range_dec32le _ _ _ _ _ _)

theorem CT_br_enc32le (dst : List Byte) (dst' : List Byte) (off : Nat) (x : BitVec 32) (x' : BitVec 32) :
    CT (Saber.Leak.U.Aes.br_enc32le dst off x) (Saber.Leak.U.Aes.br_enc32le dst' off x') := by
  unfold Saber.Leak.U.Aes.br_enc32le
  repeat ctstep
macro_rules | `(tactic| ctstep) => `(tactic| with_reducible exact Saber.Leak.U.Aes.CT_br_enc32le _ _ _ _ _)

theorem CT_br_range_enc32le (dst : List Byte) (dst' : List Byte) (off : Nat) (v : List (BitVec 32)) (v' : List (BitVec 32)) (num : Nat) :
    CT (Saber.Leak.U.Aes.br_range_enc32le dst off v num) (Saber.Leak.U.Aes.br_range_enc32le dst' off v' num) := by
  unfold Saber.Leak.U.Aes.br_range_enc32le
  repeat ctstep
macro_rules | `(tactic| ctstep) => `(tactic| with_reducible exact Saber.Leak.U.Aes.CT_br_range_enc32le _ _ _ _ _ _)

theorem CT_interleave_in (w : List (BitVec 32)) (w' : List (BitVec 32)) (off : Nat) :
    CT (Saber.Leak.U.Aes.interleave_in w off) (Saber.Leak.U.Aes.interleave_in w' off) := by
  unfold Saber.Leak.U.Aes.interleave_in
  repeat ctstep
macro_rules | `(tactic| ctstep) => `(tactic| with_reducible exact Saber.Leak.U.Aes.CT_interleave_in _ _ _)

theorem CT_interleave_out (w : List (BitVec 32)) (w' : List (BitVec 32)) (off : Nat) (q0 : BitVec 64) (q0' : BitVec 64) (q1 : BitVec 64) (q1' : BitVec 64) :
    CT (Saber.Leak.U.Aes.interleave_out w off q0 q1) (Saber.Leak.U.Aes.interleave_out w' off q0' q1') := by
  unfold Saber.Leak.U.Aes.interleave_out
  repeat ctstep
macro_rules | `(tactic| ctstep) => `(tactic| with_reducible exact Saber.Leak.U.Aes.CT_interleave_out _ _ _ _ _ _ _)

theorem CT_keyTmp (s s' : Saber.U.Aes.KS) (hj : s.j = s'.j) (hk : s.k = s'.k) :
    CT (Saber.Leak.U.Aes.keyTmp s) (Saber.Leak.U.Aes.keyTmp s') := by
  unfold Saber.Leak.U.Aes.keyTmp
  rw [hj, hk]
  repeat ctstep

theorem R2_keyStep (i : Nat) (s s' : Saber.U.Aes.KS) (h : s.j = s'.j ∧ s.k = s'.k) :
    R2 (Saber.Leak.U.Aes.keyStep i s) (Saber.Leak.U.Aes.keyStep i s') fun a b => a.j = b.j ∧ a.k = b.k := by
  unfold Saber.Leak.U.Aes.keyStep
  refine CT.bind (CT_keyTmp s s' h.1 h.2) fun _ _ => ?_
  refine CT.bind (CT.rd _ _ _) fun _ _ => CT.bind (CT.wr _ _ _ _ _) fun _ _ => ?_
  rw [h.1, h.2]
  refine CT.bind (CT.branch _) fun _ _ => R2.ite ?_ ?_ <;> exact R2.pure ⟨rfl, rfl⟩

theorem CT_keyComp (skey : List (BitVec 32)) (skey' : List (BitVec 32)) (n : Nat) (comp : List (BitVec 64)) (comp' : List (BitVec 64)) :
    CT (Saber.Leak.U.Aes.keyComp skey n comp) (Saber.Leak.U.Aes.keyComp skey' n comp') := by
  unfold Saber.Leak.U.Aes.keyComp
  repeat ctstep
macro_rules | `(tactic| ctstep) => `(tactic| with_reducible exact Saber.Leak.U.Aes.CT_keyComp _ _ _ _ _)

theorem CT_keysched (comp_skey comp_skey' : List (BitVec 64)) (key key' : List Byte) (keyOff : Nat) :
    CT (Saber.Leak.U.Aes.keysched comp_skey key keyOff) (Saber.Leak.U.Aes.keysched comp_skey' key' keyOff) := by
  unfold Saber.Leak.U.Aes.keysched
  refine CT.bind (by ctstep) fun _ _ => CT.bind (CT.rd _ _ _) fun _ _ => ?_
  refine R2.bind (R2.loop (I := fun _ a b => a.j = b.j ∧ a.k = b.k) (fun i s t h => R2_keyStep i s t h) _ _ _ ⟨rfl, rfl⟩) fun a b _ => ?_
  repeat ctstep
macro_rules | `(tactic| ctstep) => `(tactic| with_reducible exact Saber.Leak.U.Aes.CT_keysched _ _ _ _ _)

theorem CT_expandStep (comp_skey : List (BitVec 64)) (comp_skey' : List (BitVec 64)) (u : Nat) (skey : List (BitVec 64)) (skey' : List (BitVec 64)) :
    CT (Saber.Leak.U.Aes.expandStep comp_skey u skey) (Saber.Leak.U.Aes.expandStep comp_skey' u skey') := by
  unfold Saber.Leak.U.Aes.expandStep
  repeat ctstep
macro_rules | `(tactic| ctstep) => `(tactic| with_reducible exact Saber.Leak.U.Aes.CT_expandStep _ _ _ _ _)

theorem CT_skey_expand (skey : List (BitVec 64)) (skey' : List (BitVec 64)) (comp_skey : List (BitVec 64)) (comp_skey' : List (BitVec 64)) :
    CT (Saber.Leak.U.Aes.skey_expand skey comp_skey) (Saber.Leak.U.Aes.skey_expand skey' comp_skey') := by
  unfold Saber.Leak.U.Aes.skey_expand
  repeat ctstep
macro_rules | `(tactic| ctstep) => `(tactic| with_reducible exact Saber.Leak.U.Aes.CT_skey_expand _ _ _ _)

theorem CT_add_round_key (q : Q (BitVec 64)) (q' : Q (BitVec 64)) (sk : List (BitVec 64)) (sk' : List (BitVec 64)) (off : Nat) :
    CT (Saber.Leak.U.Aes.add_round_key q sk off) (Saber.Leak.U.Aes.add_round_key q' sk' off) := by
  unfold Saber.Leak.U.Aes.add_round_key
  repeat ctstep
macro_rules | `(tactic| ctstep) => `(tactic| with_reducible exact Saber.Leak.U.Aes.CT_add_round_key _ _ _ _ _)

theorem CT_inc4_be (ivw : List (BitVec 32)) (ivw' : List (BitVec 32)) (i : Nat) :
    CT (Saber.Leak.U.Aes.inc4_be ivw i) (Saber.Leak.U.Aes.inc4_be ivw' i) := by
  unfold Saber.Leak.U.Aes.inc4_be
  repeat ctstep
macro_rules | `(tactic| ctstep) => `(tactic| with_reducible exact Saber.Leak.U.Aes.CT_inc4_be _ _ _)

theorem CT_aesRound (sk_exp : List (BitVec 64)) (sk_exp' : List (BitVec 64)) (i : Nat) (q : Q (BitVec 64)) (q' : Q (BitVec 64)) :
    CT (Saber.Leak.U.Aes.aesRound sk_exp i q) (Saber.Leak.U.Aes.aesRound sk_exp' i q') := by
  unfold Saber.Leak.U.Aes.aesRound
  repeat ctstep
macro_rules | `(tactic| ctstep) => `(tactic| with_reducible exact Saber.Leak.U.Aes.CT_aesRound _ _ _ _ _)

theorem CT_aes_ctr4x (out : List Byte) (out' : List Byte) (outOff : Nat) (ivw : List (BitVec 32)) (ivw' : List (BitVec 32)) (sk_exp : List (BitVec 64)) (sk_exp' : List (BitVec 64)) :
    CT (Saber.Leak.U.Aes.aes_ctr4x out outOff ivw sk_exp) (Saber.Leak.U.Aes.aes_ctr4x out' outOff ivw' sk_exp') := by
  unfold Saber.Leak.U.Aes.aes_ctr4x
  repeat ctstep
macro_rules | `(tactic| ctstep) => `(tactic| with_reducible exact Saber.Leak.U.Aes.CT_aes_ctr4x _ _ _ _ _ _ _)

theorem CT_ctr_init (sk_exp : List (BitVec 64)) (sk_exp' : List (BitVec 64)) (key : List Byte) (key' : List Byte) (keyOff : Nat) :
    CT (Saber.Leak.U.Aes.ctr_init sk_exp key keyOff) (Saber.Leak.U.Aes.ctr_init sk_exp' key' keyOff) := by
  unfold Saber.Leak.U.Aes.ctr_init
  repeat ctstep
macro_rules | `(tactic| ctstep) => `(tactic| with_reducible exact Saber.Leak.U.Aes.CT_ctr_init _ _ _ _ _)

theorem CT_ctrLoop (sk_exp sk_exp' : List (BitVec 64)) (ivw ivw' : List (BitVec 32)) (data data' : List Byte) (off len : Nat) :
    CT (Saber.Leak.U.Aes.ctrLoop sk_exp ivw data off len) (Saber.Leak.U.Aes.ctrLoop sk_exp' ivw' data' off len) := by
  induction len using Nat.strongRecOn generalizing ivw ivw' data data' off with
  | _ len ih =>
    rw [Saber.Leak.U.Aes.ctrLoop, Saber.Leak.U.Aes.ctrLoop]
    refine CT.bind (CT.branch _) fun _ _ => ?_
    by_cases h : 64 < len
    · rw [if_pos h, if_pos h]
      refine CT.bind (CT_aes_ctr4x _ _ _ _ _ _ _) ?_
      rintro ⟨data, ivw⟩ ⟨data', ivw'⟩
      exact ih (len - 64) (by omega) ivw ivw' data data' (off + 64)
    · rw [if_neg h, if_neg h]
      refine CT.bind (CT.branch _) fun _ _ => R2.ite ?_ ?_
      all_goals repeat ctstep
macro_rules | `(tactic| ctstep) => `(tactic| with_reducible exact Saber.Leak.U.Aes.CT_ctrLoop _ _ _ _ _ _ _ _)

theorem CT_ivInit (ivw : List (BitVec 32)) (ivw' : List (BitVec 32)) (iv : List Byte) (iv' : List Byte) (ivOff : Nat) (cc : BitVec 32) (cc' : BitVec 32) :
    CT (Saber.Leak.U.Aes.ivInit ivw iv ivOff cc) (Saber.Leak.U.Aes.ivInit ivw' iv' ivOff cc') := by
  unfold Saber.Leak.U.Aes.ivInit
  repeat ctstep
macro_rules | `(tactic| ctstep) => `(tactic| with_reducible exact Saber.Leak.U.Aes.CT_ivInit _ _ _ _ _ _ _)

theorem CT_ctr_run (sk_exp : List (BitVec 64)) (sk_exp' : List (BitVec 64)) (iv : List Byte) (iv' : List Byte) (ivOff : Nat) (cc : BitVec 32) (cc' : BitVec 32) (data : List Byte) (data' : List Byte) (off : Nat) (len : Nat) :
    CT (Saber.Leak.U.Aes.ctr_run sk_exp iv ivOff cc data off len) (Saber.Leak.U.Aes.ctr_run sk_exp' iv' ivOff cc' data' off len) := by
  unfold Saber.Leak.U.Aes.ctr_run
  repeat ctstep
macro_rules | `(tactic| ctstep) => `(tactic| with_reducible exact Saber.Leak.U.Aes.CT_ctr_run _ _ _ _ _ _ _ _ _ _ _)

theorem CT_aes256ctr_prf (out : List Byte) (out' : List Byte) (outOff : Nat) (outlen : Nat) (key : List Byte) (key' : List Byte) (keyOff : Nat) (nonce : List Byte) (nonce' : List Byte) (nonceOff : Nat) :
    CT (Saber.Leak.U.Aes.aes256ctr_prf out outOff outlen key keyOff nonce nonceOff) (Saber.Leak.U.Aes.aes256ctr_prf out' outOff outlen key' keyOff nonce' nonceOff) := by
  unfold Saber.Leak.U.Aes.aes256ctr_prf
  repeat ctstep
macro_rules | `(tactic| ctstep) => `(tactic| with_reducible exact Saber.Leak.U.Aes.CT_aes256ctr_prf _ _ _ _ _ _ _ _ _ _)

theorem CT_aes256ctr_init (s : Ctx) (s' : Ctx) (key : List Byte) (key' : List Byte) (keyOff : Nat) (nonce : List Byte) (nonce' : List Byte) (nonceOff : Nat) :
    CT (Saber.Leak.U.Aes.aes256ctr_init s key keyOff nonce nonceOff) (Saber.Leak.U.Aes.aes256ctr_init s' key' keyOff nonce' nonceOff) := by
  unfold Saber.Leak.U.Aes.aes256ctr_init
  repeat ctstep
macro_rules | `(tactic| ctstep) => `(tactic| with_reducible exact Saber.Leak.U.Aes.CT_aes256ctr_init _ _ _ _ _ _ _ _)

theorem CT_aes256ctr_squeezeblocks (out : List Byte) (out' : List Byte) (outOff : Nat) (nblocks : Nat) (s : Ctx) (s' : Ctx) :
    CT (Saber.Leak.U.Aes.aes256ctr_squeezeblocks out outOff nblocks s) (Saber.Leak.U.Aes.aes256ctr_squeezeblocks out' outOff nblocks s') := by
  unfold Saber.Leak.U.Aes.aes256ctr_squeezeblocks
  repeat ctstep
macro_rules | `(tactic| ctstep) => `(tactic| with_reducible exact Saber.Leak.U.Aes.CT_aes256ctr_squeezeblocks _ _ _ _ _ _)

end Aes

namespace Sha256
open Saber.U.Sha256

theorem CT_load_bigendian (x : List Byte) (x' : List Byte) (off : Nat) :
    CT (Saber.Leak.U.Sha256.load_bigendian x off) (Saber.Leak.U.Sha256.load_bigendian x' off) := by
  unfold Saber.Leak.U.Sha256.load_bigendian
  repeat ctstep
macro_rules | `(tactic| ctstep) => `(tactic| with_reducible exact Saber.Leak.U.Sha256.CT_load_bigendian _ _ _)

theorem CT_store_bigendian (x : List Byte) (x' : List Byte) (off : Nat) (u : BitVec 32) (u' : BitVec 32) :
    CT (Saber.Leak.U.Sha256.store_bigendian x off u) (Saber.Leak.U.Sha256.store_bigendian x' off u') := by
  unfold Saber.Leak.U.Sha256.store_bigendian
  repeat ctstep
macro_rules | `(tactic| ctstep) => `(tactic| with_reducible exact Saber.Leak.U.Sha256.CT_store_bigendian _ _ _ _ _)

theorem CT_block (v : V) (v' : V) (inp : List Byte) (inp' : List Byte) (off : Nat) :
    CT (Saber.Leak.U.Sha256.block v inp off) (Saber.Leak.U.Sha256.block v' inp' off) := by
  unfold Saber.Leak.U.Sha256.block
  repeat ctstep
macro_rules | `(tactic| ctstep) => `(tactic| with_reducible exact Saber.Leak.U.Sha256.CT_block _ _ _ _ _)

theorem CT_blockLoop (v v' : V) (inp inp' : List Byte) (off inlen : Nat) :
    CT (Saber.Leak.U.Sha256.blockLoop v inp off inlen) (Saber.Leak.U.Sha256.blockLoop v' inp' off inlen) := by
  induction inlen using Nat.strongRecOn generalizing v v' off with
  | _ inlen ih =>
    rw [Saber.Leak.U.Sha256.blockLoop, Saber.Leak.U.Sha256.blockLoop]
    refine CT.bind (CT.branch _) fun _ _ => ?_
    by_cases h : 64 ≤ inlen
    · rw [if_pos h, if_pos h]
      exact CT.bind (CT_block _ _ _ _ _) fun v v' => ih (inlen - 64) (by omega) v v' (off + 64)
    · rw [if_neg h, if_neg h]
      exact CT.pure _ _
macro_rules | `(tactic| ctstep) => `(tactic| with_reducible exact Saber.Leak.U.Sha256.CT_blockLoop _ _ _ _ _ _)

theorem CT_blocks (statebytes : List Byte) (statebytes' : List Byte) (inp : List Byte) (inp' : List Byte) (inOff : Nat) (inlen : Nat) :
    CT (Saber.Leak.U.Sha256.blocks statebytes inp inOff inlen) (Saber.Leak.U.Sha256.blocks statebytes' inp' inOff inlen) := by
  unfold Saber.Leak.U.Sha256.blocks
  repeat ctstep
macro_rules | `(tactic| ctstep) => `(tactic| with_reducible exact Saber.Leak.U.Sha256.CT_blocks _ _ _ _ _ _)

end Sha256

theorem CT_sha256 (out : List Byte) (out' : List Byte) (outOff : Nat) (inp : List Byte) (inp' : List Byte) (inOff : Nat) (inlen : Nat) :
    CT (Saber.Leak.U.sha256 out outOff inp inOff inlen) (Saber.Leak.U.sha256 out' outOff inp' inOff inlen) := by
  unfold Saber.Leak.U.sha256
  repeat ctstep
macro_rules | `(tactic| ctstep) => `(tactic| with_reducible exact Saber.Leak.U.CT_sha256 _ _ _ _ _ _ _)

namespace Sha512
open Saber.U.Sha512

theorem CT_load_bigendian (x : List Byte) (x' : List Byte) (off : Nat) :
    CT (Saber.Leak.U.Sha512.load_bigendian x off) (Saber.Leak.U.Sha512.load_bigendian x' off) := by
  unfold Saber.Leak.U.Sha512.load_bigendian
  repeat ctstep
macro_rules | `(tactic| ctstep) => `(tactic| with_reducible exact Saber.Leak.U.Sha512.CT_load_bigendian _ _ _)

theorem CT_store_bigendian (x : List Byte) (x' : List Byte) (off : Nat) (u : BitVec 64) (u' : BitVec 64) :
    CT (Saber.Leak.U.Sha512.store_bigendian x off u) (Saber.Leak.U.Sha512.store_bigendian x' off u') := by
  unfold Saber.Leak.U.Sha512.store_bigendian
  repeat ctstep
macro_rules | `(tactic| ctstep) => `(tactic| with_reducible exact Saber.Leak.U.Sha512.CT_store_bigendian _ _ _ _ _)

theorem CT_block (v : V) (v' : V) (inp : List Byte) (inp' : List Byte) (off : Nat) :
    CT (Saber.Leak.U.Sha512.block v inp off) (Saber.Leak.U.Sha512.block v' inp' off) := by
  unfold Saber.Leak.U.Sha512.block
  repeat ctstep
macro_rules | `(tactic| ctstep) => `(tactic| with_reducible exact Saber.Leak.U.Sha512.CT_block _ _ _ _ _)

theorem CT_blockLoop (v v' : V) (inp inp' : List Byte) (off inlen : Nat) :
    CT (Saber.Leak.U.Sha512.blockLoop v inp off inlen) (Saber.Leak.U.Sha512.blockLoop v' inp' off inlen) := by
  induction inlen using Nat.strongRecOn generalizing v v' off with
  | _ inlen ih =>
    rw [Saber.Leak.U.Sha512.blockLoop, Saber.Leak.U.Sha512.blockLoop]
    refine CT.bind (CT.branch _) fun _ _ => ?_
    by_cases h : 128 ≤ inlen
    · rw [if_pos h, if_pos h]
      exact CT.bind (CT_block _ _ _ _ _) fun v v' => ih (inlen - 128) (by omega) v v' (off + 128)
    · rw [if_neg h, if_neg h]
      exact CT.pure _ _
macro_rules | `(tactic| ctstep) => `(tactic| with_reducible exact Saber.Leak.U.Sha512.CT_blockLoop _ _ _ _ _ _)

theorem CT_blocks (statebytes : List Byte) (statebytes' : List Byte) (inp : List Byte) (inp' : List Byte) (inOff : Nat) (inlen : Nat) :
    CT (Saber.Leak.U.Sha512.blocks statebytes inp inOff inlen) (Saber.Leak.U.Sha512.blocks statebytes' inp' inOff inlen) := by
  unfold Saber.Leak.U.Sha512.blocks
  repeat ctstep
macro_rules | `(tactic| ctstep) => `(tactic| with_reducible exact Saber.Leak.U.Sha512.CT_blocks _ _ _ _ _ _)

end Sha512

theorem CT_sha512 (out : List Byte) (out' : List Byte) (outOff : Nat) (inp : List Byte) (inp' : List Byte) (inOff : Nat) (inlen : Nat) :
    CT (Saber.Leak.U.sha512 out outOff inp inOff inlen) (Saber.Leak.U.sha512 out' outOff inp' inOff inlen) := by
  unfold Saber.Leak.U.sha512
  repeat ctstep
macro_rules | `(tactic| ctstep) => `(tactic| with_reducible exact Saber.Leak.U.CT_sha512 _ _ _ _ _ _ _)

theorem CT_saber_aes256ctr_prf (output : List Byte) (output' : List Byte) (outOff : Nat) (outlen : Nat) (input : List Byte) (input' : List Byte) (inOff : Nat) :
    CT (Saber.Leak.U.saber_aes256ctr_prf output outOff outlen input inOff) (Saber.Leak.U.saber_aes256ctr_prf output' outOff outlen input' inOff) := by
  unfold Saber.Leak.U.saber_aes256ctr_prf
  repeat ctstep
macro_rules | `(tactic| ctstep) => `(tactic| with_reducible exact Saber.Leak.U.CT_saber_aes256ctr_prf _ _ _ _ _ _ _)

theorem CT_prf (c : Cfg) (out : List Byte) (out' : List Byte) (outOff : Nat) (outlen : Nat) (inp : List Byte) (inp' : List Byte) (inOff : Nat) (inlen : Nat) :
    CT (Saber.Leak.U.prf c out outOff outlen inp inOff inlen) (Saber.Leak.U.prf c out' outOff outlen inp' inOff inlen) := by
  unfold Saber.Leak.U.prf
  repeat ctstep
macro_rules | `(tactic| ctstep) => `(tactic| with_reducible exact Saber.Leak.U.CT_prf _ _ _ _ _ _ _ _ _)

theorem CT_hash_h (c : Cfg) (out : List Byte) (out' : List Byte) (outOff : Nat) (inp : List Byte) (inp' : List Byte) (inOff : Nat) (inlen : Nat) :
    CT (Saber.Leak.U.hash_h c out outOff inp inOff inlen) (Saber.Leak.U.hash_h c out' outOff inp' inOff inlen) := by
  unfold Saber.Leak.U.hash_h
  repeat ctstep
macro_rules | `(tactic| ctstep) => `(tactic| with_reducible exact Saber.Leak.U.CT_hash_h _ _ _ _ _ _ _ _)

theorem CT_hash_g (c : Cfg) (out : List Byte) (out' : List Byte) (outOff : Nat) (inp : List Byte) (inp' : List Byte) (inOff : Nat) (inlen : Nat) :
    CT (Saber.Leak.U.hash_g c out outOff inp inOff inlen) (Saber.Leak.U.hash_g c out' outOff inp' inOff inlen) := by
  unfold Saber.Leak.U.hash_g
  repeat ctstep
macro_rules | `(tactic| ctstep) => `(tactic| with_reducible exact Saber.Leak.U.CT_hash_g _ _ _ _ _ _ _ _)

theorem CT_POLq2BS_12 (bytes : List Byte) (bytes' : List Byte) (off : Nat) (data : List (BitVec 16)) (data' : List (BitVec 16)) :
    CT (Saber.Leak.U.POLq2BS_12 bytes off data) (Saber.Leak.U.POLq2BS_12 bytes' off data') := by
  unfold Saber.Leak.U.POLq2BS_12
  repeat ctstep
macro_rules | `(tactic| ctstep) => `(tactic| with_reducible exact Saber.Leak.U.CT_POLq2BS_12 _ _ _ _ _)

theorem CT_BS2POLq_12 (bytes : List Byte) (bytes' : List Byte) (off : Nat) (data : List (BitVec 16)) (data' : List (BitVec 16)) :
    CT (Saber.Leak.U.BS2POLq_12 bytes off data) (Saber.Leak.U.BS2POLq_12 bytes' off data') := by
  unfold Saber.Leak.U.BS2POLq_12
  repeat ctstep
macro_rules | `(tactic| ctstep) => `(tactic| with_reducible exact Saber.Leak.U.CT_BS2POLq_12 _ _ _ _ _)

theorem CT_POLq2BS (c : Cfg) (bytes : List Byte) (bytes' : List Byte) (off : Nat) (data : List (BitVec 16)) (data' : List (BitVec 16)) :
    CT (Saber.Leak.U.POLq2BS c bytes off data) (Saber.Leak.U.POLq2BS c bytes' off data') := by
  unfold Saber.Leak.U.POLq2BS
  repeat ctstep
macro_rules | `(tactic| ctstep) => `(tactic| with_reducible exact Saber.Leak.U.CT_POLq2BS _ _ _ _ _ _)

theorem CT_BS2POLq (c : Cfg) (bytes : List Byte) (bytes' : List Byte) (off : Nat) (data : List (BitVec 16)) (data' : List (BitVec 16)) :
    CT (Saber.Leak.U.BS2POLq c bytes off data) (Saber.Leak.U.BS2POLq c bytes' off data') := by
  unfold Saber.Leak.U.BS2POLq
  repeat ctstep
macro_rules | `(tactic| ctstep) => `(tactic| with_reducible exact Saber.Leak.U.CT_BS2POLq _ _ _ _ _ _)

theorem CT_POLVECq2BS (c : Cfg) (bytes : List Byte) (bytes' : List Byte) (off : Nat) (data : List (List (BitVec 16))) (data' : List (List (BitVec 16))) :
    CT (Saber.Leak.U.POLVECq2BS c bytes off data) (Saber.Leak.U.POLVECq2BS c bytes' off data') := by
  unfold Saber.Leak.U.POLVECq2BS
  repeat ctstep
macro_rules | `(tactic| ctstep) => `(tactic| with_reducible exact Saber.Leak.U.CT_POLVECq2BS _ _ _ _ _ _)

theorem CT_BS2POLVECq (c : Cfg) (bytes : List Byte) (bytes' : List Byte) (off : Nat) (data : List (List (BitVec 16))) (data' : List (List (BitVec 16))) :
    CT (Saber.Leak.U.BS2POLVECq c bytes off data) (Saber.Leak.U.BS2POLVECq c bytes' off data') := by
  unfold Saber.Leak.U.BS2POLVECq
  repeat ctstep
macro_rules | `(tactic| ctstep) => `(tactic| with_reducible exact Saber.Leak.U.CT_BS2POLVECq _ _ _ _ _ _)

theorem CT_GenMatrix (c : Cfg) (A : List (List (List (BitVec 16)))) (A' : List (List (List (BitVec 16)))) (seed : List Byte) (seed' : List Byte) (seedOff : Nat) :
    CT (Saber.Leak.U.GenMatrix c A seed seedOff) (Saber.Leak.U.GenMatrix c A' seed' seedOff) := by
  unfold Saber.Leak.U.GenMatrix
  repeat ctstep
macro_rules | `(tactic| ctstep) => `(tactic| with_reducible exact Saber.Leak.U.CT_GenMatrix _ _ _ _ _ _)

theorem CT_twoBits (b b' k : Nat) : CT (Saber.Leak.U.twoBits b k) (Saber.Leak.U.twoBits b' k) := by
  unfold Saber.Leak.U.twoBits
  repeat ctstep
macro_rules | `(tactic| ctstep) => `(tactic| with_reducible exact Saber.Leak.U.CT_twoBits _ _ _)

theorem CT_uniformRow (si : List (BitVec 16)) (si' : List (BitVec 16)) (buf : List Byte) (buf' : List Byte) (off : Nat) :
    CT (Saber.Leak.U.uniformRow si buf off) (Saber.Leak.U.uniformRow si' buf' off) := by
  unfold Saber.Leak.U.uniformRow
  repeat ctstep
macro_rules | `(tactic| ctstep) => `(tactic| with_reducible exact Saber.Leak.U.CT_uniformRow _ _ _ _ _)

theorem CT_secretRow (c : Cfg) (si : List (BitVec 16)) (si' : List (BitVec 16)) (buf : List Byte) (buf' : List Byte) (off : Nat) :
    CT (Saber.Leak.U.secretRow c si buf off) (Saber.Leak.U.secretRow c si' buf' off) := by
  unfold Saber.Leak.U.secretRow
  repeat ctstep
macro_rules | `(tactic| ctstep) => `(tactic| with_reducible exact Saber.Leak.U.CT_secretRow _ _ _ _ _ _)

theorem CT_GenSecret (c : Cfg) (s : List (List (BitVec 16))) (s' : List (List (BitVec 16))) (seed : List Byte) (seed' : List Byte) (seedOff : Nat) :
    CT (Saber.Leak.U.GenSecret c s seed seedOff) (Saber.Leak.U.GenSecret c s' seed' seedOff) := by
  unfold Saber.Leak.U.GenSecret
  repeat ctstep
macro_rules | `(tactic| ctstep) => `(tactic| with_reducible exact Saber.Leak.U.CT_GenSecret _ _ _ _ _ _)

theorem CT_roundVec (c : Cfg) (b : List (List (BitVec 16))) (b' : List (List (BitVec 16))) :
    CT (Saber.Leak.U.roundVec c b) (Saber.Leak.U.roundVec c b') := by
  unfold Saber.Leak.U.roundVec
  repeat ctstep
macro_rules | `(tactic| ctstep) => `(tactic| with_reducible exact Saber.Leak.U.CT_roundVec _ _ _)

theorem CT_indcpa_kem_keypair {σ τ : Type} (c : Cfg) (rb : RandomBytes σ) (rb' : RandomBytes τ) (pk : List Byte) (pk' : List Byte) (sk : List Byte) (sk' : List Byte) (st : σ) (st' : τ) :
    CT (Saber.Leak.U.indcpa_kem_keypair c rb pk sk st) (Saber.Leak.U.indcpa_kem_keypair c rb' pk' sk' st') := by
  unfold Saber.Leak.U.indcpa_kem_keypair
  repeat ctstep
macro_rules | `(tactic| ctstep) => `(tactic| with_reducible exact Saber.Leak.U.CT_indcpa_kem_keypair _ _ _ _ _ _ _ _ _)

theorem CT_encRound (c : Cfg) (vp : List (BitVec 16)) (vp' : List (BitVec 16)) (mp : List (BitVec 16)) (mp' : List (BitVec 16)) :
    CT (Saber.Leak.U.encRound c vp mp) (Saber.Leak.U.encRound c vp' mp') := by
  unfold Saber.Leak.U.encRound
  repeat ctstep
macro_rules | `(tactic| ctstep) => `(tactic| with_reducible exact Saber.Leak.U.CT_encRound _ _ _ _ _)

theorem CT_indcpa_kem_enc (c : Cfg) (m : List Byte) (m' : List Byte) (mOff : Nat) (seed_sp : List Byte) (seed_sp' : List Byte) (seedOff : Nat) (pk : List Byte) (pk' : List Byte) (pkOff : Nat) (ciphertext : List Byte) (ciphertext' : List Byte) :
    CT (Saber.Leak.U.indcpa_kem_enc c m mOff seed_sp seedOff pk pkOff ciphertext) (Saber.Leak.U.indcpa_kem_enc c m' mOff seed_sp' seedOff pk' pkOff ciphertext') := by
  unfold Saber.Leak.U.indcpa_kem_enc
  repeat ctstep
macro_rules | `(tactic| ctstep) => `(tactic| with_reducible exact Saber.Leak.U.CT_indcpa_kem_enc _ _ _ _ _ _ _ _ _ _ _ _)

theorem CT_decRound (c : Cfg) (v : List (BitVec 16)) (v' : List (BitVec 16)) (cm : List (BitVec 16)) (cm' : List (BitVec 16)) :
    CT (Saber.Leak.U.decRound c v cm) (Saber.Leak.U.decRound c v' cm') := by
  unfold Saber.Leak.U.decRound
  repeat ctstep
macro_rules | `(tactic| ctstep) => `(tactic| with_reducible exact Saber.Leak.U.CT_decRound _ _ _ _ _)

theorem CT_indcpa_kem_dec (c : Cfg) (sk : List Byte) (sk' : List Byte) (ciphertext : List Byte) (ciphertext' : List Byte) (m : List Byte) (m' : List Byte) :
    CT (Saber.Leak.U.indcpa_kem_dec c sk ciphertext m) (Saber.Leak.U.indcpa_kem_dec c sk' ciphertext' m') := by
  unfold Saber.Leak.U.indcpa_kem_dec
  repeat ctstep
macro_rules | `(tactic| ctstep) => `(tactic| with_reducible exact Saber.Leak.U.CT_indcpa_kem_dec _ _ _ _ _ _ _)

theorem CT_crypto_kem_keypair {σ τ : Type} (cfg : Cfg) (rb : RandomBytes σ) (rb' : RandomBytes τ) (pk : List Byte) (pk' : List Byte) (sk : List Byte) (sk' : List Byte) (st : σ) (st' : τ) :
    CT (Saber.Leak.U.crypto_kem_keypair cfg rb pk sk st) (Saber.Leak.U.crypto_kem_keypair cfg rb' pk' sk' st') := by
  unfold Saber.Leak.U.crypto_kem_keypair
  repeat ctstep
macro_rules | `(tactic| ctstep) => `(tactic| with_reducible exact Saber.Leak.U.CT_crypto_kem_keypair _ _ _ _ _ _ _ _ _)

theorem CT_crypto_kem_enc {σ τ : Type} (cfg : Cfg) (rb : RandomBytes σ) (rb' : RandomBytes τ) (c : List Byte) (c' : List Byte) (k : List Byte) (k' : List Byte) (pk : List Byte) (pk' : List Byte) (st : σ) (st' : τ) :
    CT (Saber.Leak.U.crypto_kem_enc cfg rb c k pk st) (Saber.Leak.U.crypto_kem_enc cfg rb' c' k' pk' st') := by
  unfold Saber.Leak.U.crypto_kem_enc
  repeat ctstep
macro_rules | `(tactic| ctstep) => `(tactic| with_reducible exact Saber.Leak.U.CT_crypto_kem_enc _ _ _ _ _ _ _ _ _ _ _)

theorem CT_crypto_kem_dec (cfg : Cfg) (k : List Byte) (k' : List Byte) (c : List Byte) (c' : List Byte) (sk : List Byte) (sk' : List Byte) :
    CT (Saber.Leak.U.crypto_kem_dec cfg k c sk) (Saber.Leak.U.crypto_kem_dec cfg k' c' sk') := by
  unfold Saber.Leak.U.crypto_kem_dec
  repeat ctstep
macro_rules | `(tactic| ctstep) => `(tactic| with_reducible exact Saber.Leak.U.CT_crypto_kem_dec _ _ _ _ _ _ _)

end Saber.Leak.U
