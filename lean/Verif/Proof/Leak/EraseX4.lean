import Verif.Model.Leak.X4
import Verif.Proof.Leak.EraseAvx
/-! # SaberX4: leaving out the events gives the model -/
set_option linter.unusedSectionVars false

namespace Saber.Leak.X4
open Saber.X4

theorem E_four {σ : Type} {f : Fin 4 → σ → LM σ} {g : Fin 4 → σ → CM σ} (s : σ) (h : ∀ l s, E (f l s) (g l s)) :
    E (Saber.Leak.X4.four s f) (Saber.X4.four s g) :=
  E.bind (h 0 s) fun _ => E.bind (h 1 _) fun _ => E.bind (h 2 _) fun _ => h 3 _
macro_rules | `(tactic| estep) => `(tactic| with_reducible refine Saber.Leak.X4.E_four _ (fun _ _ => ?_))
theorem E_gather {α : Type} (n : Nat) {f : Nat → LM α} {g : Nat → CM α} (d : α) (h : ∀ i, E (f i) (g i)) :
    E (Saber.Leak.X4.gather n f d) (Saber.X4.gather n g d) :=
  E.loop (fun i _ => E.bind (h i) fun _ => E.pure _) n _
macro_rules | `(tactic| estep) => `(tactic| with_reducible refine Saber.Leak.X4.E_gather _ _ (fun _ => ?_))
theorem E_famM {α : Type} {f : Fin 4 → LM α} {g : Fin 4 → CM α} (h : ∀ l, E (f l) (g l)) : E (Saber.Leak.X4.famM f) (Saber.X4.famM g) :=
  E.bind (h 0) fun _ => E.bind (h 1) fun _ => E.bind (h 2) fun _ => E.bind (h 3) fun _ => E.pure _
macro_rules | `(tactic| estep) => `(tactic| with_reducible refine Saber.Leak.X4.E_famM (fun _ => ?_))
theorem E_fourA {τ : Type} (x : Fam τ) {f : Fin 4 → τ → LM τ} {g : Fin 4 → τ → CM τ} (h : ∀ l s, E (f l s) (g l s)) :
    E (Saber.Leak.X4.fourA x f) (Saber.X4.fourA x g) :=
  E_four x fun l s => E.bind (h l (s l)) fun _ => E.pure _
macro_rules | `(tactic| estep) => `(tactic| with_reducible refine Saber.Leak.X4.E_fourA _ (fun _ _ => ?_))
theorem E_rd2 {α : Type} (a : List (List α)) (i j : Nat) : E (Saber.Leak.X4.rd2 a i j) (Saber.X4.rd2 a i j) :=
  E.bind (E.rd _ _) fun _ => E.rd _ _
macro_rules | `(tactic| estep) => `(tactic| with_reducible exact Saber.Leak.X4.E_rd2 _ _ _)
theorem E_wr2 {α : Type} (a : List (List α)) (i j : Nat) (v : α) : E (Saber.Leak.X4.wr2 a i j v) (Saber.X4.wr2 a i j v) :=
  E.bind (E.rd _ _) fun _ => E.bind (E.wr _ _ _) fun _ => E.wr _ _ _
macro_rules | `(tactic| estep) => `(tactic| with_reducible exact Saber.Leak.X4.E_wr2 _ _ _ _)

theorem E_roundPrepare (i : Nat) (X : Vars × Cols) : E (Saber.Leak.X4.roundPrepare i X) (Saber.X4.roundPrepare i X) := by
  unfold Saber.Leak.X4.roundPrepare Saber.X4.roundPrepare
  repeat estep
macro_rules | `(tactic| estep) => `(tactic| with_reducible exact Saber.Leak.X4.E_roundPrepare _ _)

theorem E_roundLast (i : Nat) (X : Vars × Cols) : E (Saber.Leak.X4.roundLast i X) (Saber.X4.roundLast i X) := by
  unfold Saber.Leak.X4.roundLast Saber.X4.roundLast
  repeat estep
macro_rules | `(tactic| estep) => `(tactic| with_reducible exact Saber.Leak.X4.E_roundLast _ _)

theorem E_rounds24 (A : Vars) : E (Saber.Leak.X4.rounds24 A) (Saber.X4.rounds24 A) := by
  unfold Saber.Leak.X4.rounds24 Saber.X4.rounds24
  repeat estep
macro_rules | `(tactic| estep) => `(tactic| with_reducible exact Saber.Leak.X4.E_rounds24 _)

theorem E_KeccakP1600times4_PermuteAll_24rounds (states : List V256) : E (Saber.Leak.X4.KeccakP1600times4_PermuteAll_24rounds states) (Saber.X4.KeccakP1600times4_PermuteAll_24rounds states) := by
  unfold Saber.Leak.X4.KeccakP1600times4_PermuteAll_24rounds Saber.X4.KeccakP1600times4_PermuteAll_24rounds
  repeat estep
macro_rules | `(tactic| estep) => `(tactic| with_reducible exact Saber.Leak.X4.E_KeccakP1600times4_PermuteAll_24rounds _)

theorem E_ssRd (s : List V256) (j : Nat) : E (Saber.Leak.X4.ssRd s j) (Saber.X4.ssRd s j) := by
  unfold Saber.Leak.X4.ssRd Saber.X4.ssRd
  repeat estep
macro_rules | `(tactic| estep) => `(tactic| with_reducible exact Saber.Leak.X4.E_ssRd _ _)

theorem E_ssWr (s : List V256) (j : Nat) (x : BitVec 64) : E (Saber.Leak.X4.ssWr s j x) (Saber.X4.ssWr s j x) := by
  unfold Saber.Leak.X4.ssWr Saber.X4.ssWr
  repeat estep
macro_rules | `(tactic| estep) => `(tactic| with_reducible exact Saber.Leak.X4.E_ssWr _ _ _)

theorem E_xorBlock4x (s : List V256) (r : Nat) (m : Fam (List Byte)) (mOff : Fam Nat) : E (Saber.Leak.X4.xorBlock4x s r m mOff) (Saber.X4.xorBlock4x s r m mOff) := by
  unfold Saber.Leak.X4.xorBlock4x Saber.X4.xorBlock4x
  repeat estep
macro_rules | `(tactic| estep) => `(tactic| with_reducible exact Saber.Leak.X4.E_xorBlock4x _ _ _ _)

theorem E_absorbLoop4x (s : List V256) (r : Nat) (m : Fam (List Byte)) (mOff : Fam Nat) (mlen : Nat) :
    E (Saber.Leak.X4.absorbLoop4x s r m mOff mlen) (Saber.X4.absorbLoop4x s r m mOff mlen) := by
  induction mlen using Nat.strongRecOn generalizing s mOff with
  | _ mlen ih =>
   by_cases h : r ≤ mlen ∧ 0 < r
   · rw [Saber.Leak.X4.absorbLoop4x, Saber.X4.absorbLoop4x, dif_pos h, dif_pos h]
     refine E.branch _ ?_
     refine E.bind ?_ fun s' => E.bind ?_ fun s'' => ih (mlen - r) (by omega) s'' _
     all_goals estep
   · rw [Saber.Leak.X4.absorbLoop4x, Saber.X4.absorbLoop4x, dif_neg h, dif_neg h]
     exact E.branch _ (E.pure _)
macro_rules | `(tactic| estep) => `(tactic| with_reducible exact Saber.Leak.X4.E_absorbLoop4x _ _ _ _ _)

theorem E_keccak_absorb4x (s : List V256) (r : Nat) (m : Fam (List Byte)) (mOff : Fam Nat) (mlen : Nat) (p : Byte) : E (Saber.Leak.X4.keccak_absorb4x s r m mOff mlen p) (Saber.X4.keccak_absorb4x s r m mOff mlen p) := by
  unfold Saber.Leak.X4.keccak_absorb4x Saber.X4.keccak_absorb4x
  repeat estep
macro_rules | `(tactic| estep) => `(tactic| with_reducible exact Saber.Leak.X4.E_keccak_absorb4x _ _ _ _ _ _)

theorem E_keccak_squeezeblocks4x (h : Fam (List Byte)) (hOff : Fam Nat) (nblocks : Nat) (s : List V256) (r : Nat) : E (Saber.Leak.X4.keccak_squeezeblocks4x h hOff nblocks s r) (Saber.X4.keccak_squeezeblocks4x h hOff nblocks s r) := by
  unfold Saber.Leak.X4.keccak_squeezeblocks4x Saber.X4.keccak_squeezeblocks4x
  repeat estep
macro_rules | `(tactic| estep) => `(tactic| with_reducible exact Saber.Leak.X4.E_keccak_squeezeblocks4x _ _ _ _ _)

theorem E_clearState4x  : E (Saber.Leak.X4.clearState4x ) (Saber.X4.clearState4x ) := by
  unfold Saber.Leak.X4.clearState4x Saber.X4.clearState4x
  repeat estep
macro_rules | `(tactic| estep) => `(tactic| with_reducible exact Saber.Leak.X4.E_clearState4x )

theorem E_copyOut (n : Nat) (out : Fam (List Byte)) (outOff : Fam Nat) (t : Fam (List Byte)) : E (Saber.Leak.X4.copyOut n out outOff t) (Saber.X4.copyOut n out outOff t) := by
  unfold Saber.Leak.X4.copyOut Saber.X4.copyOut
  repeat estep
macro_rules | `(tactic| estep) => `(tactic| with_reducible exact Saber.Leak.X4.E_copyOut _ _ _ _)

theorem E_shake128x4With (tSize : Nat) (out : Fam (List Byte)) (outOff : Fam Nat) (outlen : Nat) (input : Fam (List Byte)) (inOff : Fam Nat) (inlen : Nat) : E (Saber.Leak.X4.shake128x4With tSize out outOff outlen input inOff inlen) (Saber.X4.shake128x4With tSize out outOff outlen input inOff inlen) := by
  unfold Saber.Leak.X4.shake128x4With Saber.X4.shake128x4With
  repeat estep
macro_rules | `(tactic| estep) => `(tactic| with_reducible exact Saber.Leak.X4.E_shake128x4With _ _ _ _ _ _ _)

theorem E_shake256x4 (out : Fam (List Byte)) (outOff : Fam Nat) (outlen : Nat) (input : Fam (List Byte)) (inOff : Fam Nat) (inlen : Nat) : E (Saber.Leak.X4.shake256x4 out outOff outlen input inOff inlen) (Saber.X4.shake256x4 out outOff outlen input inOff inlen) := by
  unfold Saber.Leak.X4.shake256x4 Saber.X4.shake256x4
  repeat estep
macro_rules | `(tactic| estep) => `(tactic| with_reducible exact Saber.Leak.X4.E_shake256x4 _ _ _ _ _ _)

theorem E_sha3_256x4 (out : Fam (List Byte)) (outOff : Fam Nat) (input : Fam (List Byte)) (inOff : Fam Nat) (inlen : Nat) : E (Saber.Leak.X4.sha3_256x4 out outOff input inOff inlen) (Saber.X4.sha3_256x4 out outOff input inOff inlen) := by
  unfold Saber.Leak.X4.sha3_256x4 Saber.X4.sha3_256x4
  repeat estep
macro_rules | `(tactic| estep) => `(tactic| with_reducible exact Saber.Leak.X4.E_sha3_256x4 _ _ _ _ _)

theorem E_sha3_512x4 (out : Fam (List Byte)) (outOff : Fam Nat) (input : Fam (List Byte)) (inOff : Fam Nat) (inlen : Nat) : E (Saber.Leak.X4.sha3_512x4 out outOff input inOff inlen) (Saber.X4.sha3_512x4 out outOff input inOff inlen) := by
  unfold Saber.Leak.X4.sha3_512x4 Saber.X4.sha3_512x4
  repeat estep
macro_rules | `(tactic| estep) => `(tactic| with_reducible exact Saber.Leak.X4.E_sha3_512x4 _ _ _ _ _)

theorem E_load_ps (bytes : List Byte) (off : Nat) : E (Saber.Leak.X4.load_ps bytes off) (Saber.X4.load_ps bytes off) := by
  unfold Saber.Leak.X4.load_ps Saber.X4.load_ps
  repeat estep
macro_rules | `(tactic| estep) => `(tactic| with_reducible exact Saber.Leak.X4.E_load_ps _ _)

theorem E_flatRd (data : List (List (BitVec 16))) (n : Nat) : E (Saber.Leak.X4.flatRd data n) (Saber.X4.flatRd data n) := by
  unfold Saber.Leak.X4.flatRd Saber.X4.flatRd
  repeat estep
macro_rules | `(tactic| estep) => `(tactic| with_reducible exact Saber.Leak.X4.E_flatRd _ _)

theorem E_load_ps16 (data : List (List (BitVec 16))) (off : Nat) : E (Saber.Leak.X4.load_ps16 data off) (Saber.X4.load_ps16 data off) := by
  unfold Saber.Leak.X4.load_ps16 Saber.X4.load_ps16
  repeat estep
macro_rules | `(tactic| estep) => `(tactic| with_reducible exact Saber.Leak.X4.E_load_ps16 _ _)

theorem E_store_si128 (bytes : List Byte) (off : Nat) (v : Fin 16 → BitVec 8) : E (Saber.Leak.X4.store_si128 bytes off v) (Saber.X4.store_si128 bytes off v) := by
  unfold Saber.Leak.X4.store_si128 Saber.X4.store_si128
  repeat estep
macro_rules | `(tactic| estep) => `(tactic| with_reducible exact Saber.Leak.X4.E_store_si128 _ _ _)

theorem E_loadBlock {ld : Fin 4 → Nat → LM V4} {ld' : Fin 4 → Nat → CM V4} (off0 off1 : Fam Nat) (h : ∀ l o, E (ld l o) (ld' l o)) :
    E (Saber.Leak.X4.loadBlock ld off0 off1) (Saber.X4.loadBlock ld' off0 off1) :=
  E.bind (E_famM fun l => h l _) fun _ => E.bind (E_famM fun l => h l _) fun _ => E.pure _
macro_rules | `(tactic| estep) => `(tactic| with_reducible refine Saber.Leak.X4.E_loadBlock _ _ (fun _ _ => ?_))

theorem E_avx_load_16bit_8bit (data : Fam (List (List (BitVec 16)))) (avx_data : List V8) : E (Saber.Leak.X4.avx_load_16bit_8bit data avx_data) (Saber.X4.avx_load_16bit_8bit data avx_data) := by
  unfold Saber.Leak.X4.avx_load_16bit_8bit Saber.X4.avx_load_16bit_8bit
  repeat estep
macro_rules | `(tactic| estep) => `(tactic| with_reducible exact Saber.Leak.X4.E_avx_load_16bit_8bit _ _)

theorem E_avx_load_8bit_16bit (bs : Fam (List Byte)) (off : Fam Nat) (avx_bytes : List V8) (size : Nat) : E (Saber.Leak.X4.avx_load_8bit_16bit bs off avx_bytes size) (Saber.X4.avx_load_8bit_16bit bs off avx_bytes size) := by
  unfold Saber.Leak.X4.avx_load_8bit_16bit Saber.X4.avx_load_8bit_16bit
  repeat estep
macro_rules | `(tactic| estep) => `(tactic| with_reducible exact Saber.Leak.X4.E_avx_load_8bit_16bit _ _ _ _)

theorem E_extract16 (avx : List V8) (offset0 : Nat) (h : Fin 2) : E (Saber.Leak.X4.extract16 avx offset0 h) (Saber.X4.extract16 avx offset0 h) := by
  unfold Saber.Leak.X4.extract16 Saber.X4.extract16
  repeat estep
macro_rules | `(tactic| estep) => `(tactic| with_reducible exact Saber.Leak.X4.E_extract16 _ _ _)

theorem E_avx_store_8bit_bs (avx_bytes : List V8) (size : Nat) (bytes : Fam (List Byte)) (off : Fam Nat) (off1 : Nat) : E (Saber.Leak.X4.avx_store_8bit_bs avx_bytes size bytes off off1) (Saber.X4.avx_store_8bit_bs avx_bytes size bytes off off1) := by
  unfold Saber.Leak.X4.avx_store_8bit_bs Saber.X4.avx_store_8bit_bs
  repeat estep
macro_rules | `(tactic| estep) => `(tactic| with_reducible exact Saber.Leak.X4.E_avx_store_8bit_bs _ _ _ _ _)

theorem E_avx_store_16bit_KN (avx_data_new : List V8) (data : Fam (List (List Avx.Vec))) : E (Saber.Leak.X4.avx_store_16bit_KN avx_data_new data) (Saber.X4.avx_store_16bit_KN avx_data_new data) := by
  unfold Saber.Leak.X4.avx_store_16bit_KN Saber.X4.avx_store_16bit_KN
  repeat estep
macro_rules | `(tactic| estep) => `(tactic| with_reducible exact Saber.Leak.X4.E_avx_store_16bit_KN _ _)

theorem E_POLVECp2BSX4 (bytes : Fam (List Byte)) (off : Fam Nat) (data : Fam (List (List (BitVec 16)))) : E (Saber.Leak.X4.POLVECp2BSX4 bytes off data) (Saber.X4.POLVECp2BSX4 bytes off data) := by
  unfold Saber.Leak.X4.POLVECp2BSX4 Saber.X4.POLVECp2BSX4
  repeat estep
macro_rules | `(tactic| estep) => `(tactic| with_reducible exact Saber.Leak.X4.E_POLVECp2BSX4 _ _ _)

theorem E_POLVECq2BSX4 (bytes : Fam (List Byte)) (off : Fam Nat) (data : Fam (List (List (BitVec 16)))) : E (Saber.Leak.X4.POLVECq2BSX4 bytes off data) (Saber.X4.POLVECq2BSX4 bytes off data) := by
  unfold Saber.Leak.X4.POLVECq2BSX4 Saber.X4.POLVECq2BSX4
  repeat estep
macro_rules | `(tactic| estep) => `(tactic| with_reducible exact Saber.Leak.X4.E_POLVECq2BSX4 _ _ _)

theorem E_BS2POLVECpX4 (bs : Fam (List Byte)) (off : Fam Nat) (data : Fam (List (List Avx.Vec))) : E (Saber.Leak.X4.BS2POLVECpX4 bs off data) (Saber.X4.BS2POLVECpX4 bs off data) := by
  unfold Saber.Leak.X4.BS2POLVECpX4 Saber.X4.BS2POLVECpX4
  repeat estep
macro_rules | `(tactic| estep) => `(tactic| with_reducible exact Saber.Leak.X4.E_BS2POLVECpX4 _ _ _)

theorem E_BS2POLVECqX4 (bs : Fam (List Byte)) (off : Fam Nat) (data : Fam (List (List Avx.Vec))) : E (Saber.Leak.X4.BS2POLVECqX4 bs off data) (Saber.X4.BS2POLVECqX4 bs off data) := by
  unfold Saber.Leak.X4.BS2POLVECqX4 Saber.X4.BS2POLVECqX4
  repeat estep
macro_rules | `(tactic| estep) => `(tactic| with_reducible exact Saber.Leak.X4.E_BS2POLVECqX4 _ _ _)

theorem E_POLVEC2BSX4 (bytes : Fam (List Byte)) (off : Fam Nat) (data : Fam (List (List (BitVec 16)))) (modulus : Nat) : E (Saber.Leak.X4.POLVEC2BSX4 bytes off data modulus) (Saber.X4.POLVEC2BSX4 bytes off data modulus) := by
  unfold Saber.Leak.X4.POLVEC2BSX4 Saber.X4.POLVEC2BSX4
  repeat estep
macro_rules | `(tactic| estep) => `(tactic| with_reducible exact Saber.Leak.X4.E_POLVEC2BSX4 _ _ _ _)

theorem E_BS2POLVECX4 (bytes : Fam (List Byte)) (off : Fam Nat) (data : Fam (List (List Avx.Vec))) (modulus : Nat) : E (Saber.Leak.X4.BS2POLVECX4 bytes off data modulus) (Saber.X4.BS2POLVECX4 bytes off data modulus) := by
  unfold Saber.Leak.X4.BS2POLVECX4 Saber.X4.BS2POLVECX4
  repeat estep
macro_rules | `(tactic| estep) => `(tactic| with_reducible exact Saber.Leak.X4.E_BS2POLVECX4 _ _ _ _)

theorem E_BS2POLq4x (bs : Fam (List Byte)) (off : Fam Nat) (data : Fam (List Avx.Vec)) : E (Saber.Leak.X4.BS2POLq4x bs off data) (Saber.X4.BS2POLq4x bs off data) := by
  unfold Saber.Leak.X4.BS2POLq4x Saber.X4.BS2POLq4x
  repeat estep
macro_rules | `(tactic| estep) => `(tactic| with_reducible exact Saber.Leak.X4.E_BS2POLq4x _ _ _)

theorem E_SABER_pack_4bit (bytes : List Byte) (off : Nat) (data : List (BitVec 16)) : E (Saber.Leak.X4.SABER_pack_4bit bytes off data) (Saber.X4.SABER_pack_4bit bytes off data) := by
  unfold Saber.Leak.X4.SABER_pack_4bit Saber.X4.SABER_pack_4bit
  repeat estep
macro_rules | `(tactic| estep) => `(tactic| with_reducible exact Saber.Leak.X4.E_SABER_pack_4bit _ _ _)

theorem E_SABER_un_pack4bitX4 (bytes : Fam (List Byte)) (off : Fam Nat) (Mask_ar : Fam (List (BitVec 16))) : E (Saber.Leak.X4.SABER_un_pack4bitX4 bytes off Mask_ar) (Saber.X4.SABER_un_pack4bitX4 bytes off Mask_ar) := by
  unfold Saber.Leak.X4.SABER_un_pack4bitX4 Saber.X4.SABER_un_pack4bitX4
  repeat estep
macro_rules | `(tactic| estep) => `(tactic| with_reducible exact Saber.Leak.X4.E_SABER_un_pack4bitX4 _ _ _)

theorem E_GenMatrix4x (tSize : Nat) (a : Fam VMat) (seed : Fam (List Byte)) : E (Saber.Leak.X4.GenMatrix4x tSize a seed) (Saber.X4.GenMatrix4x tSize a seed) := by
  unfold Saber.Leak.X4.GenMatrix4x Saber.X4.GenMatrix4x
  repeat estep
macro_rules | `(tactic| estep) => `(tactic| with_reducible exact Saber.Leak.X4.E_GenMatrix4x _ _ _)

theorem E_GenSecret4x (tSize : Nat) (r : Fam (List (List (BitVec 16)))) (seed : Fam (List Byte)) (seedOff : Nat) : E (Saber.Leak.X4.GenSecret4x tSize r seed seedOff) (Saber.X4.GenSecret4x tSize r seed seedOff) := by
  unfold Saber.Leak.X4.GenSecret4x Saber.X4.GenSecret4x
  repeat estep
macro_rules | `(tactic| estep) => `(tactic| with_reducible exact Saber.Leak.X4.E_GenSecret4x _ _ _ _)

theorem E_loadVec4x (dst : Fam (List (List Avx.Vec))) (src : Fam (List (List (BitVec 16)))) : E (Saber.Leak.X4.loadVec4x dst src) (Saber.X4.loadVec4x dst src) := by
  unfold Saber.Leak.X4.loadVec4x Saber.X4.loadVec4x
  repeat estep
macro_rules | `(tactic| estep) => `(tactic| with_reducible exact Saber.Leak.X4.E_loadVec4x _ _)

theorem E_copyMat4x (dst : Fam VMat) (src : Fam VMat) : E (Saber.Leak.X4.copyMat4x dst src) (Saber.X4.copyMat4x dst src) := by
  unfold Saber.Leak.X4.copyMat4x Saber.X4.copyMat4x
  repeat estep
macro_rules | `(tactic| estep) => `(tactic| with_reducible exact Saber.Leak.X4.E_copyMat4x _ _)

theorem E_clearVV4x (res : Fam (List (List Avx.Vec))) : E (Saber.Leak.X4.clearVV4x res) (Saber.X4.clearVV4x res) := by
  unfold Saber.Leak.X4.clearVV4x Saber.X4.clearVV4x
  repeat estep
macro_rules | `(tactic| estep) => `(tactic| with_reducible exact Saber.Leak.X4.E_clearVV4x _)

theorem E_clear4x (v : Fam (List Avx.Vec)) : E (Saber.Leak.X4.clear4x v) (Saber.X4.clear4x v) := by
  unfold Saber.Leak.X4.clear4x Saber.X4.clear4x
  repeat estep
macro_rules | `(tactic| estep) => `(tactic| with_reducible exact Saber.Leak.X4.E_clear4x _)

theorem E_evalAll4x (sk_avx : Fam (List (List Avx.Vec))) (b_bucket : Fam (List (List Avx.Vec))) : E (Saber.Leak.X4.evalAll4x sk_avx b_bucket) (Saber.X4.evalAll4x sk_avx b_bucket) := by
  unfold Saber.Leak.X4.evalAll4x Saber.X4.evalAll4x
  repeat estep
macro_rules | `(tactic| estep) => `(tactic| with_reducible exact Saber.Leak.X4.E_evalAll4x _ _)

theorem E_truncVec4x (res : Fam (List (List Avx.Vec))) : E (Saber.Leak.X4.truncVec4x res) (Saber.X4.truncVec4x res) := by
  unfold Saber.Leak.X4.truncVec4x Saber.X4.truncVec4x
  repeat estep
macro_rules | `(tactic| estep) => `(tactic| with_reducible exact Saber.Leak.X4.E_truncVec4x _)

theorem E_storeVec4x (dst : Fam (List (List (BitVec 16)))) (v : Fam (List (List Avx.Vec))) : E (Saber.Leak.X4.storeVec4x dst v) (Saber.X4.storeVec4x dst v) := by
  unfold Saber.Leak.X4.storeVec4x Saber.X4.storeVec4x
  repeat estep
macro_rules | `(tactic| estep) => `(tactic| with_reducible exact Saber.Leak.X4.E_storeVec4x _ _)

theorem E_storeRow4x (row : Fam (List (BitVec 16))) (v : Fam (List Avx.Vec)) : E (Saber.Leak.X4.storeRow4x row v) (Saber.X4.storeRow4x row v) := by
  unfold Saber.Leak.X4.storeRow4x Saber.X4.storeRow4x
  repeat estep
macro_rules | `(tactic| estep) => `(tactic| with_reducible exact Saber.Leak.X4.E_storeRow4x _ _)

theorem E_storeTemp4x (temp : Fam (List (List (BitVec 16)))) (v : Fam (List Avx.Vec)) : E (Saber.Leak.X4.storeTemp4x temp v) (Saber.X4.storeTemp4x temp v) := by
  unfold Saber.Leak.X4.storeTemp4x Saber.X4.storeTemp4x
  repeat estep
macro_rules | `(tactic| estep) => `(tactic| with_reducible exact Saber.Leak.X4.E_storeTemp4x _ _)

theorem E_indcpa_kem_keypair (tSize : Nat) (pk : Fam (List Byte)) (sk : Fam (List Byte)) (seed : Fam (List Byte)) (noiseseed : Fam (List Byte)) : E (Saber.Leak.X4.indcpa_kem_keypair tSize pk sk seed noiseseed) (Saber.X4.indcpa_kem_keypair tSize pk sk seed noiseseed) := by
  unfold Saber.Leak.X4.indcpa_kem_keypair Saber.X4.indcpa_kem_keypair
  repeat estep
macro_rules | `(tactic| estep) => `(tactic| with_reducible exact Saber.Leak.X4.E_indcpa_kem_keypair _ _ _ _ _)

theorem E_unpackMsg4x (message : Fam (List (BitVec 16))) (message_received : Fam (List Byte)) : E (Saber.Leak.X4.unpackMsg4x message message_received) (Saber.X4.unpackMsg4x message message_received) := by
  unfold Saber.Leak.X4.unpackMsg4x Saber.X4.unpackMsg4x
  repeat estep
macro_rules | `(tactic| estep) => `(tactic| with_reducible exact Saber.Leak.X4.E_unpackMsg4x _ _)

theorem E_encodeMessage4x (message_avx : Fam (List Avx.Vec)) (message : Fam (List (BitVec 16))) : E (Saber.Leak.X4.encodeMessage4x message_avx message) (Saber.X4.encodeMessage4x message_avx message) := by
  unfold Saber.Leak.X4.encodeMessage4x Saber.X4.encodeMessage4x
  repeat estep
macro_rules | `(tactic| estep) => `(tactic| with_reducible exact Saber.Leak.X4.E_encodeMessage4x _ _)

theorem E_addH1_4x (v : Fam (List Avx.Vec)) : E (Saber.Leak.X4.addH1_4x v) (Saber.X4.addH1_4x v) := by
  unfold Saber.Leak.X4.addH1_4x Saber.X4.addH1_4x
  repeat estep
macro_rules | `(tactic| estep) => `(tactic| with_reducible exact Saber.Leak.X4.E_addH1_4x _)

theorem E_truncEnc4x (v : Fam (List Avx.Vec)) (m : Fam (List Avx.Vec)) : E (Saber.Leak.X4.truncEnc4x v m) (Saber.X4.truncEnc4x v m) := by
  unfold Saber.Leak.X4.truncEnc4x Saber.X4.truncEnc4x
  repeat estep
macro_rules | `(tactic| estep) => `(tactic| with_reducible exact Saber.Leak.X4.E_truncEnc4x _ _)

theorem E_indcpa_kem_enc (tSize : Nat) (message_received : Fam (List Byte)) (noiseseed : Fam (List Byte)) (noiseOff : Nat) (pk : Fam (List Byte)) (pkOff : Nat) (ciphertext : Fam (List Byte)) : E (Saber.Leak.X4.indcpa_kem_enc tSize message_received noiseseed noiseOff pk pkOff ciphertext) (Saber.X4.indcpa_kem_enc tSize message_received noiseseed noiseOff pk pkOff ciphertext) := by
  unfold Saber.Leak.X4.indcpa_kem_enc Saber.X4.indcpa_kem_enc
  repeat estep
macro_rules | `(tactic| estep) => `(tactic| with_reducible exact Saber.Leak.X4.E_indcpa_kem_enc _ _ _ _ _ _ _)

theorem E_decRound4x (m : Fam (List (BitVec 16))) (op : Fam (List (BitVec 16))) : E (Saber.Leak.X4.decRound4x m op) (Saber.X4.decRound4x m op) := by
  unfold Saber.Leak.X4.decRound4x Saber.X4.decRound4x
  repeat estep
macro_rules | `(tactic| estep) => `(tactic| with_reducible exact Saber.Leak.X4.E_decRound4x _ _)

theorem E_indcpa_kem_dec (sk : Fam (List Byte)) (ciphertext : Fam (List Byte)) (message_dec : Fam (List Byte)) : E (Saber.Leak.X4.indcpa_kem_dec sk ciphertext message_dec) (Saber.X4.indcpa_kem_dec sk ciphertext message_dec) := by
  unfold Saber.Leak.X4.indcpa_kem_dec Saber.X4.indcpa_kem_dec
  repeat estep
macro_rules | `(tactic| estep) => `(tactic| with_reducible exact Saber.Leak.X4.E_indcpa_kem_dec _ _ _)

theorem E_crypto_kem_keypair4x {σ : Type} (tSize : Nat) (rb : RandomBytes σ) (pk : Fam (List Byte)) (sk : Fam (List Byte)) (st : σ) : E (Saber.Leak.X4.crypto_kem_keypair4x tSize rb pk sk st) (Saber.X4.crypto_kem_keypair4x tSize rb pk sk st) := by
  unfold Saber.Leak.X4.crypto_kem_keypair4x Saber.X4.crypto_kem_keypair4x
  repeat estep
macro_rules | `(tactic| estep) => `(tactic| with_reducible exact Saber.Leak.X4.E_crypto_kem_keypair4x _ _ _ _ _)

theorem E_crypto_kem_enc4x {σ : Type} (tSize : Nat) (rb : RandomBytes σ) (c : Fam (List Byte)) (k : Fam (List Byte)) (pk : Fam (List Byte)) (st : σ) : E (Saber.Leak.X4.crypto_kem_enc4x tSize rb c k pk st) (Saber.X4.crypto_kem_enc4x tSize rb c k pk st) := by
  unfold Saber.Leak.X4.crypto_kem_enc4x Saber.X4.crypto_kem_enc4x
  repeat estep
macro_rules | `(tactic| estep) => `(tactic| with_reducible exact Saber.Leak.X4.E_crypto_kem_enc4x _ _ _ _ _ _)

theorem E_crypto_kem_dec4x (tSize : Nat) (k : Fam (List Byte)) (c : Fam (List Byte)) (sk : Fam (List Byte)) : E (Saber.Leak.X4.crypto_kem_dec4x tSize k c sk) (Saber.X4.crypto_kem_dec4x tSize k c sk) := by
  unfold Saber.Leak.X4.crypto_kem_dec4x Saber.X4.crypto_kem_dec4x
  repeat estep
macro_rules | `(tactic| estep) => `(tactic| with_reducible exact Saber.Leak.X4.E_crypto_kem_dec4x _ _ _ _)

theorem E_crypto_kem_keypairWith {σ : Type} (tSize : Nat) (rb : RandomBytes σ) (pk : List Byte) (sk : List Byte) (st : σ) : E (Saber.Leak.X4.crypto_kem_keypairWith tSize rb pk sk st) (Saber.X4.crypto_kem_keypairWith tSize rb pk sk st) := by
  unfold Saber.Leak.X4.crypto_kem_keypairWith Saber.X4.crypto_kem_keypairWith
  repeat estep
macro_rules | `(tactic| estep) => `(tactic| with_reducible exact Saber.Leak.X4.E_crypto_kem_keypairWith _ _ _ _ _)

theorem E_crypto_kem_encWith {σ : Type} (tSize : Nat) (rb : RandomBytes σ) (c : List Byte) (k : List Byte) (pk : List Byte) (st : σ) : E (Saber.Leak.X4.crypto_kem_encWith tSize rb c k pk st) (Saber.X4.crypto_kem_encWith tSize rb c k pk st) := by
  unfold Saber.Leak.X4.crypto_kem_encWith Saber.X4.crypto_kem_encWith
  repeat estep
macro_rules | `(tactic| estep) => `(tactic| with_reducible exact Saber.Leak.X4.E_crypto_kem_encWith _ _ _ _ _ _)

theorem E_crypto_kem_decWith (tSize : Nat) (k : List Byte) (c : List Byte) (sk : List Byte) : E (Saber.Leak.X4.crypto_kem_decWith tSize k c sk) (Saber.X4.crypto_kem_decWith tSize k c sk) := by
  unfold Saber.Leak.X4.crypto_kem_decWith Saber.X4.crypto_kem_decWith
  repeat estep
macro_rules | `(tactic| estep) => `(tactic| with_reducible exact Saber.Leak.X4.E_crypto_kem_decWith _ _ _ _)

end Saber.Leak.X4
