import Verif.Model.Leak.X4
import Verif.Proof.Leak.ConstTimeAvx
/-! # SaberX4: the events do not depend on the data -/
set_option linter.unusedSectionVars false

namespace Saber.Leak.X4
open Saber.X4

theorem R2_four {σ τ : Type} {Q : σ → τ → Prop} {f : Fin 4 → σ → LM σ} {g : Fin 4 → τ → LM τ} (s : σ) (t : τ) (h0 : Q s t)
    (h : ∀ l s t, Q s t → R2 (f l s) (g l t) Q) : R2 (Saber.Leak.X4.four s f) (Saber.Leak.X4.four t g) Q :=
  R2.bind (h 0 s t h0) fun _ _ e => R2.bind (h 1 _ _ e) fun _ _ e => R2.bind (h 2 _ _ e) fun _ _ e => h 3 _ _ e
theorem CT_four {σ τ : Type} {f : Fin 4 → σ → LM σ} {g : Fin 4 → τ → LM τ} (s : σ) (t : τ) (h : ∀ l s t, CT (f l s) (g l t)) :
    CT (Saber.Leak.X4.four s f) (Saber.Leak.X4.four t g) := R2_four s t trivial fun l s t _ => h l s t
macro_rules | `(tactic| ctstep) => `(tactic| with_reducible refine Saber.Leak.X4.CT_four _ _ (fun _ _ _ => ?_))
theorem CT_gather {α β : Type} (n : Nat) {f : Nat → LM α} {g : Nat → LM β} (d : α) (e : β) (h : ∀ i, CT (f i) (g i)) :
    CT (Saber.Leak.X4.gather n f d) (Saber.Leak.X4.gather n g e) := by
  refine CT.loop (fun i _ _ => ?_) n _ _
  exact CT.bind (h i) fun _ _ => CT.pure _ _
macro_rules | `(tactic| ctstep) => `(tactic| with_reducible refine Saber.Leak.X4.CT_gather _ _ _ (fun _ => ?_))
theorem CT_famM {α β : Type} {f : Fin 4 → LM α} {g : Fin 4 → LM β} (h : ∀ l, CT (f l) (g l)) :
    CT (Saber.Leak.X4.famM f) (Saber.Leak.X4.famM g) :=
  CT.bind (h 0) fun _ _ => CT.bind (h 1) fun _ _ => CT.bind (h 2) fun _ _ => CT.bind (h 3) fun _ _ => CT.pure _ _
macro_rules | `(tactic| ctstep) => `(tactic| with_reducible refine Saber.Leak.X4.CT_famM (fun _ => ?_))
theorem CT_fourA {σ τ : Type} (x : Fam σ) (y : Fam τ) {f : Fin 4 → σ → LM σ} {g : Fin 4 → τ → LM τ} (h : ∀ l s t, CT (f l s) (g l t)) :
    CT (Saber.Leak.X4.fourA x f) (Saber.Leak.X4.fourA y g) :=
  CT_four x y fun l s t => CT.bind (h l (s l) (t l)) fun _ _ => CT.pure _ _
macro_rules | `(tactic| ctstep) => `(tactic| with_reducible refine Saber.Leak.X4.CT_fourA _ _ (fun _ _ _ => ?_))
theorem CT_rd2 {α β : Type} (a : List (List α)) (b : List (List β)) (i j : Nat) : CT (Saber.Leak.X4.rd2 a i j) (Saber.Leak.X4.rd2 b i j) :=
  CT.bind (CT.rd _ _ _) fun _ _ => CT.rd _ _ _
macro_rules | `(tactic| ctstep) => `(tactic| with_reducible exact Saber.Leak.X4.CT_rd2 _ _ _ _)
theorem CT_wr2 {α β : Type} (a : List (List α)) (b : List (List β)) (i j : Nat) (v : α) (w : β) :
    CT (Saber.Leak.X4.wr2 a i j v) (Saber.Leak.X4.wr2 b i j w) :=
  CT.bind (CT.rd _ _ _) fun _ _ => CT.bind (CT.wr _ _ _ _ _) fun _ _ => CT.wr _ _ _ _ _
macro_rules | `(tactic| ctstep) => `(tactic| with_reducible exact Saber.Leak.X4.CT_wr2 _ _ _ _ _ _)

theorem CT_roundPrepare (i : Nat) (X : Vars × Cols) (X' : Vars × Cols) :
    CT (Saber.Leak.X4.roundPrepare i X) (Saber.Leak.X4.roundPrepare i X') := by
  unfold Saber.Leak.X4.roundPrepare
  repeat ctstep
macro_rules | `(tactic| ctstep) => `(tactic| with_reducible exact Saber.Leak.X4.CT_roundPrepare _ _ _)

theorem CT_roundLast (i : Nat) (X : Vars × Cols) (X' : Vars × Cols) :
    CT (Saber.Leak.X4.roundLast i X) (Saber.Leak.X4.roundLast i X') := by
  unfold Saber.Leak.X4.roundLast
  repeat ctstep
macro_rules | `(tactic| ctstep) => `(tactic| with_reducible exact Saber.Leak.X4.CT_roundLast _ _ _)

theorem CT_rounds24 (A : Vars) (A' : Vars) :
    CT (Saber.Leak.X4.rounds24 A) (Saber.Leak.X4.rounds24 A') := by
  unfold Saber.Leak.X4.rounds24
  repeat ctstep
macro_rules | `(tactic| ctstep) => `(tactic| with_reducible exact Saber.Leak.X4.CT_rounds24 _ _)

theorem CT_KeccakP1600times4_PermuteAll_24rounds (states : List V256) (states' : List V256) :
    CT (Saber.Leak.X4.KeccakP1600times4_PermuteAll_24rounds states) (Saber.Leak.X4.KeccakP1600times4_PermuteAll_24rounds states') := by
  unfold Saber.Leak.X4.KeccakP1600times4_PermuteAll_24rounds
  repeat ctstep
macro_rules | `(tactic| ctstep) => `(tactic| with_reducible exact Saber.Leak.X4.CT_KeccakP1600times4_PermuteAll_24rounds _ _)

theorem CT_ssRd (s : List V256) (s' : List V256) (j : Nat) :
    CT (Saber.Leak.X4.ssRd s j) (Saber.Leak.X4.ssRd s' j) := by
  unfold Saber.Leak.X4.ssRd
  repeat ctstep
macro_rules | `(tactic| ctstep) => `(tactic| with_reducible exact Saber.Leak.X4.CT_ssRd _ _ _)

theorem CT_ssWr (s : List V256) (s' : List V256) (j : Nat) (x : BitVec 64) (x' : BitVec 64) :
    CT (Saber.Leak.X4.ssWr s j x) (Saber.Leak.X4.ssWr s' j x') := by
  unfold Saber.Leak.X4.ssWr
  repeat ctstep
macro_rules | `(tactic| ctstep) => `(tactic| with_reducible exact Saber.Leak.X4.CT_ssWr _ _ _ _ _)

theorem CT_xorBlock4x (s : List V256) (s' : List V256) (r : Nat) (m : Fam (List Byte)) (m' : Fam (List Byte)) (mOff : Fam Nat) :
    CT (Saber.Leak.X4.xorBlock4x s r m mOff) (Saber.Leak.X4.xorBlock4x s' r m' mOff) := by
  unfold Saber.Leak.X4.xorBlock4x
  repeat ctstep
macro_rules | `(tactic| ctstep) => `(tactic| with_reducible exact Saber.Leak.X4.CT_xorBlock4x _ _ _ _ _ _)

theorem R2_absorbLoop4x (s s' : List V256) (r : Nat) (m m' : Fam (List Byte)) (mOff : Fam Nat) (mlen : Nat) :
    R2 (Saber.Leak.X4.absorbLoop4x s r m mOff mlen) (Saber.Leak.X4.absorbLoop4x s' r m' mOff mlen) fun a b => a.2 = b.2 := by
  induction mlen using Nat.strongRecOn generalizing s s' mOff with
  | _ mlen ih =>
    rw [Saber.Leak.X4.absorbLoop4x.eq_def s, Saber.Leak.X4.absorbLoop4x.eq_def s']
    refine CT.bind (CT.branch _) fun _ _ => ?_
    by_cases h : r ≤ mlen ∧ 0 < r
    · rw [dif_pos h, dif_pos h]
      refine CT.bind (CT_xorBlock4x _ _ _ _ _ _) fun s s' => CT.bind (CT_KeccakP1600times4_PermuteAll_24rounds _ _) fun s s' => ?_
      exact ih (mlen - r) (by omega) s s' _
    · rw [dif_neg h, dif_neg h]
      exact R2.pure rfl

theorem CT_keccak_absorb4x (s s' : List V256) (r : Nat) (m m' : Fam (List Byte)) (mOff : Fam Nat) (mlen : Nat) (p p' : Byte) :
    CT (Saber.Leak.X4.keccak_absorb4x s r m mOff mlen p) (Saber.Leak.X4.keccak_absorb4x s' r m' mOff mlen p') := by
  unfold Saber.Leak.X4.keccak_absorb4x
  refine R2.bind (R2_absorbLoop4x _ _ _ _ _ _ _) ?_
  rintro ⟨s, a, b⟩ ⟨s', a', b'⟩ h
  obtain ⟨rfl, rfl⟩ := Prod.mk.inj h
  repeat ctstep
macro_rules | `(tactic| ctstep) => `(tactic| with_reducible exact Saber.Leak.X4.CT_keccak_absorb4x _ _ _ _ _ _ _ _ _)

theorem CT_keccak_squeezeblocks4x (h h' : Fam (List Byte)) (hOff : Fam Nat) (nblocks : Nat) (s s' : List V256) (r : Nat) :
    CT (Saber.Leak.X4.keccak_squeezeblocks4x h hOff nblocks s r) (Saber.Leak.X4.keccak_squeezeblocks4x h' hOff nblocks s' r) := by
  unfold Saber.Leak.X4.keccak_squeezeblocks4x
  refine R2.bind (R2.loop (I := fun _ a b => a.2.1 = b.2.1) ?_ _ _ _ rfl) ?_
  · rintro i ⟨h, o, s⟩ ⟨h', o', s'⟩ e
    obtain rfl : o = o' := e
    refine CT.bind (CT_KeccakP1600times4_PermuteAll_24rounds _ _) fun s s' => CT.bind ?_ fun h h' => R2.pure rfl
    repeat ctstep
  · rintro ⟨h, o, s⟩ ⟨h', o', s'⟩ e
    exact CT.pure _ _
macro_rules | `(tactic| ctstep) => `(tactic| with_reducible exact Saber.Leak.X4.CT_keccak_squeezeblocks4x _ _ _ _ _ _ _)

theorem CT_clearState4x  :
    CT (Saber.Leak.X4.clearState4x ) (Saber.Leak.X4.clearState4x ) := by
  unfold Saber.Leak.X4.clearState4x
  repeat ctstep
macro_rules | `(tactic| ctstep) => `(tactic| with_reducible exact Saber.Leak.X4.CT_clearState4x )

theorem CT_copyOut (n : Nat) (out : Fam (List Byte)) (out' : Fam (List Byte)) (outOff : Fam Nat) (t : Fam (List Byte)) (t' : Fam (List Byte)) :
    CT (Saber.Leak.X4.copyOut n out outOff t) (Saber.Leak.X4.copyOut n out' outOff t') := by
  unfold Saber.Leak.X4.copyOut
  repeat ctstep
macro_rules | `(tactic| ctstep) => `(tactic| with_reducible exact Saber.Leak.X4.CT_copyOut _ _ _ _ _ _)

theorem CT_shake128x4With (tSize : Nat) (out : Fam (List Byte)) (out' : Fam (List Byte)) (outOff : Fam Nat) (outlen : Nat) (input : Fam (List Byte)) (input' : Fam (List Byte)) (inOff : Fam Nat) (inlen : Nat) :
    CT (Saber.Leak.X4.shake128x4With tSize out outOff outlen input inOff inlen) (Saber.Leak.X4.shake128x4With tSize out' outOff outlen input' inOff inlen) := by
  unfold Saber.Leak.X4.shake128x4With
  repeat ctstep
macro_rules | `(tactic| ctstep) => `(tactic| with_reducible exact Saber.Leak.X4.CT_shake128x4With _ _ _ _ _ _ _ _ _)

theorem CT_shake256x4 (out : Fam (List Byte)) (out' : Fam (List Byte)) (outOff : Fam Nat) (outlen : Nat) (input : Fam (List Byte)) (input' : Fam (List Byte)) (inOff : Fam Nat) (inlen : Nat) :
    CT (Saber.Leak.X4.shake256x4 out outOff outlen input inOff inlen) (Saber.Leak.X4.shake256x4 out' outOff outlen input' inOff inlen) := by
  unfold Saber.Leak.X4.shake256x4
  repeat ctstep
macro_rules | `(tactic| ctstep) => `(tactic| with_reducible exact Saber.Leak.X4.CT_shake256x4 _ _ _ _ _ _ _ _)

theorem CT_sha3_256x4 (out : Fam (List Byte)) (out' : Fam (List Byte)) (outOff : Fam Nat) (input : Fam (List Byte)) (input' : Fam (List Byte)) (inOff : Fam Nat) (inlen : Nat) :
    CT (Saber.Leak.X4.sha3_256x4 out outOff input inOff inlen) (Saber.Leak.X4.sha3_256x4 out' outOff input' inOff inlen) := by
  unfold Saber.Leak.X4.sha3_256x4
  repeat ctstep
macro_rules | `(tactic| ctstep) => `(tactic| with_reducible exact Saber.Leak.X4.CT_sha3_256x4 _ _ _ _ _ _ _)

theorem CT_sha3_512x4 (out : Fam (List Byte)) (out' : Fam (List Byte)) (outOff : Fam Nat) (input : Fam (List Byte)) (input' : Fam (List Byte)) (inOff : Fam Nat) (inlen : Nat) :
    CT (Saber.Leak.X4.sha3_512x4 out outOff input inOff inlen) (Saber.Leak.X4.sha3_512x4 out' outOff input' inOff inlen) := by
  unfold Saber.Leak.X4.sha3_512x4
  repeat ctstep
macro_rules | `(tactic| ctstep) => `(tactic| with_reducible exact Saber.Leak.X4.CT_sha3_512x4 _ _ _ _ _ _ _)

theorem CT_load_ps (bytes : List Byte) (bytes' : List Byte) (off : Nat) :
    CT (Saber.Leak.X4.load_ps bytes off) (Saber.Leak.X4.load_ps bytes' off) := by
  unfold Saber.Leak.X4.load_ps
  repeat ctstep
macro_rules | `(tactic| ctstep) => `(tactic| with_reducible exact Saber.Leak.X4.CT_load_ps _ _ _)

theorem CT_flatRd (data : List (List (BitVec 16))) (data' : List (List (BitVec 16))) (n : Nat) :
    CT (Saber.Leak.X4.flatRd data n) (Saber.Leak.X4.flatRd data' n) := by
  unfold Saber.Leak.X4.flatRd
  repeat ctstep
macro_rules | `(tactic| ctstep) => `(tactic| with_reducible exact Saber.Leak.X4.CT_flatRd _ _ _)

theorem CT_load_ps16 (data : List (List (BitVec 16))) (data' : List (List (BitVec 16))) (off : Nat) :
    CT (Saber.Leak.X4.load_ps16 data off) (Saber.Leak.X4.load_ps16 data' off) := by
  unfold Saber.Leak.X4.load_ps16
  repeat ctstep
macro_rules | `(tactic| ctstep) => `(tactic| with_reducible exact Saber.Leak.X4.CT_load_ps16 _ _ _)

theorem CT_store_si128 (bytes : List Byte) (bytes' : List Byte) (off : Nat) (v : Fin 16 → BitVec 8) (v' : Fin 16 → BitVec 8) :
    CT (Saber.Leak.X4.store_si128 bytes off v) (Saber.Leak.X4.store_si128 bytes' off v') := by
  unfold Saber.Leak.X4.store_si128
  repeat ctstep
macro_rules | `(tactic| ctstep) => `(tactic| with_reducible exact Saber.Leak.X4.CT_store_si128 _ _ _ _ _)

theorem CT_loadBlock {ld ld' : Fin 4 → Nat → LM V4} (off0 off1 : Fam Nat) (h : ∀ l o, CT (ld l o) (ld' l o)) :
    CT (Saber.Leak.X4.loadBlock ld off0 off1) (Saber.Leak.X4.loadBlock ld' off0 off1) :=
  CT.bind (CT_famM fun l => h l _) fun _ _ => CT.bind (CT_famM fun l => h l _) fun _ _ => CT.pure _ _
macro_rules | `(tactic| ctstep) => `(tactic| with_reducible refine Saber.Leak.X4.CT_loadBlock _ _ (fun _ _ => ?_))

theorem CT_avx_load_16bit_8bit (data data' : Fam (List (List (BitVec 16)))) (avx_data avx_data' : List V8) :
    CT (Saber.Leak.X4.avx_load_16bit_8bit data avx_data) (Saber.Leak.X4.avx_load_16bit_8bit data' avx_data') := by
  unfold Saber.Leak.X4.avx_load_16bit_8bit
  refine CT.loop (fun i x x' => ?_) _ _ _
  refine CT.bind (CT_loadBlock _ _ fun l o => CT_load_ps16 _ _ _) fun l l' => ?_
  refine CT.wrs _ _ ?_ _ _ _
  simp only [List.length_cons, List.length_nil]
macro_rules | `(tactic| ctstep) => `(tactic| with_reducible exact Saber.Leak.X4.CT_avx_load_16bit_8bit _ _ _ _)

theorem CT_avx_load_8bit_16bit (bs bs' : Fam (List Byte)) (off : Fam Nat) (avx_bytes avx_bytes' : List V8) (size : Nat) :
    CT (Saber.Leak.X4.avx_load_8bit_16bit bs off avx_bytes size) (Saber.Leak.X4.avx_load_8bit_16bit bs' off avx_bytes' size) := by
  unfold Saber.Leak.X4.avx_load_8bit_16bit
  refine CT.loop (fun i x x' => ?_) _ _ _
  refine CT.bind (CT_loadBlock _ _ fun l o => CT_load_ps _ _ _) fun l l' => ?_
  refine CT.wrs _ _ ?_ _ _ _
  simp only [List.length_cons, List.length_nil]
macro_rules | `(tactic| ctstep) => `(tactic| with_reducible exact Saber.Leak.X4.CT_avx_load_8bit_16bit _ _ _ _ _ _)

theorem CT_extract16 (avx : List V8) (avx' : List V8) (offset0 : Nat) (h : Fin 2) :
    CT (Saber.Leak.X4.extract16 avx offset0 h) (Saber.Leak.X4.extract16 avx' offset0 h) := by
  unfold Saber.Leak.X4.extract16
  repeat ctstep
macro_rules | `(tactic| ctstep) => `(tactic| with_reducible exact Saber.Leak.X4.CT_extract16 _ _ _ _)

theorem CT_avx_store_8bit_bs (avx_bytes : List V8) (avx_bytes' : List V8) (size : Nat) (bytes : Fam (List Byte)) (bytes' : Fam (List Byte)) (off : Fam Nat) (off1 : Nat) :
    CT (Saber.Leak.X4.avx_store_8bit_bs avx_bytes size bytes off off1) (Saber.Leak.X4.avx_store_8bit_bs avx_bytes' size bytes' off off1) := by
  unfold Saber.Leak.X4.avx_store_8bit_bs
  repeat ctstep
macro_rules | `(tactic| ctstep) => `(tactic| with_reducible exact Saber.Leak.X4.CT_avx_store_8bit_bs _ _ _ _ _ _ _)

theorem CT_avx_store_16bit_KN (avx_data_new : List V8) (avx_data_new' : List V8) (data : Fam (List (List Avx.Vec))) (data' : Fam (List (List Avx.Vec))) :
    CT (Saber.Leak.X4.avx_store_16bit_KN avx_data_new data) (Saber.Leak.X4.avx_store_16bit_KN avx_data_new' data') := by
  unfold Saber.Leak.X4.avx_store_16bit_KN
  repeat ctstep
macro_rules | `(tactic| ctstep) => `(tactic| with_reducible exact Saber.Leak.X4.CT_avx_store_16bit_KN _ _ _ _)

theorem CT_POLVECp2BSX4 (bytes : Fam (List Byte)) (bytes' : Fam (List Byte)) (off : Fam Nat) (data : Fam (List (List (BitVec 16)))) (data' : Fam (List (List (BitVec 16)))) :
    CT (Saber.Leak.X4.POLVECp2BSX4 bytes off data) (Saber.Leak.X4.POLVECp2BSX4 bytes' off data') := by
  unfold Saber.Leak.X4.POLVECp2BSX4
  repeat ctstep
macro_rules | `(tactic| ctstep) => `(tactic| with_reducible exact Saber.Leak.X4.CT_POLVECp2BSX4 _ _ _ _ _)

theorem CT_POLVECq2BSX4 (bytes : Fam (List Byte)) (bytes' : Fam (List Byte)) (off : Fam Nat) (data : Fam (List (List (BitVec 16)))) (data' : Fam (List (List (BitVec 16)))) :
    CT (Saber.Leak.X4.POLVECq2BSX4 bytes off data) (Saber.Leak.X4.POLVECq2BSX4 bytes' off data') := by
  unfold Saber.Leak.X4.POLVECq2BSX4
  repeat ctstep
macro_rules | `(tactic| ctstep) => `(tactic| with_reducible exact Saber.Leak.X4.CT_POLVECq2BSX4 _ _ _ _ _)

theorem CT_BS2POLVECpX4 (bs : Fam (List Byte)) (bs' : Fam (List Byte)) (off : Fam Nat) (data : Fam (List (List Avx.Vec))) (data' : Fam (List (List Avx.Vec))) :
    CT (Saber.Leak.X4.BS2POLVECpX4 bs off data) (Saber.Leak.X4.BS2POLVECpX4 bs' off data') := by
  unfold Saber.Leak.X4.BS2POLVECpX4
  repeat ctstep
macro_rules | `(tactic| ctstep) => `(tactic| with_reducible exact Saber.Leak.X4.CT_BS2POLVECpX4 _ _ _ _ _)

theorem CT_BS2POLVECqX4 (bs : Fam (List Byte)) (bs' : Fam (List Byte)) (off : Fam Nat) (data : Fam (List (List Avx.Vec))) (data' : Fam (List (List Avx.Vec))) :
    CT (Saber.Leak.X4.BS2POLVECqX4 bs off data) (Saber.Leak.X4.BS2POLVECqX4 bs' off data') := by
  unfold Saber.Leak.X4.BS2POLVECqX4
  repeat ctstep
macro_rules | `(tactic| ctstep) => `(tactic| with_reducible exact Saber.Leak.X4.CT_BS2POLVECqX4 _ _ _ _ _)

theorem CT_POLVEC2BSX4 (bytes : Fam (List Byte)) (bytes' : Fam (List Byte)) (off : Fam Nat) (data : Fam (List (List (BitVec 16)))) (data' : Fam (List (List (BitVec 16)))) (modulus : Nat) :
    CT (Saber.Leak.X4.POLVEC2BSX4 bytes off data modulus) (Saber.Leak.X4.POLVEC2BSX4 bytes' off data' modulus) := by
  unfold Saber.Leak.X4.POLVEC2BSX4
  repeat ctstep
macro_rules | `(tactic| ctstep) => `(tactic| with_reducible exact Saber.Leak.X4.CT_POLVEC2BSX4 _ _ _ _ _ _)

theorem CT_BS2POLVECX4 (bytes : Fam (List Byte)) (bytes' : Fam (List Byte)) (off : Fam Nat) (data : Fam (List (List Avx.Vec))) (data' : Fam (List (List Avx.Vec))) (modulus : Nat) :
    CT (Saber.Leak.X4.BS2POLVECX4 bytes off data modulus) (Saber.Leak.X4.BS2POLVECX4 bytes' off data' modulus) := by
  unfold Saber.Leak.X4.BS2POLVECX4
  repeat ctstep
macro_rules | `(tactic| ctstep) => `(tactic| with_reducible exact Saber.Leak.X4.CT_BS2POLVECX4 _ _ _ _ _ _)

theorem CT_BS2POLq4x (bs : Fam (List Byte)) (bs' : Fam (List Byte)) (off : Fam Nat) (data : Fam (List Avx.Vec)) (data' : Fam (List Avx.Vec)) :
    CT (Saber.Leak.X4.BS2POLq4x bs off data) (Saber.Leak.X4.BS2POLq4x bs' off data') := by
  unfold Saber.Leak.X4.BS2POLq4x
  repeat ctstep
macro_rules | `(tactic| ctstep) => `(tactic| with_reducible exact Saber.Leak.X4.CT_BS2POLq4x _ _ _ _ _)

theorem CT_SABER_pack_4bit (bytes : List Byte) (bytes' : List Byte) (off : Nat) (data : List (BitVec 16)) (data' : List (BitVec 16)) :
    CT (Saber.Leak.X4.SABER_pack_4bit bytes off data) (Saber.Leak.X4.SABER_pack_4bit bytes' off data') := by
  unfold Saber.Leak.X4.SABER_pack_4bit
  repeat ctstep
macro_rules | `(tactic| ctstep) => `(tactic| with_reducible exact Saber.Leak.X4.CT_SABER_pack_4bit _ _ _ _ _)

theorem CT_SABER_un_pack4bitX4 (bytes : Fam (List Byte)) (bytes' : Fam (List Byte)) (off : Fam Nat) (Mask_ar : Fam (List (BitVec 16))) (Mask_ar' : Fam (List (BitVec 16))) :
    CT (Saber.Leak.X4.SABER_un_pack4bitX4 bytes off Mask_ar) (Saber.Leak.X4.SABER_un_pack4bitX4 bytes' off Mask_ar') := by
  unfold Saber.Leak.X4.SABER_un_pack4bitX4
  repeat ctstep
macro_rules | `(tactic| ctstep) => `(tactic| with_reducible exact Saber.Leak.X4.CT_SABER_un_pack4bitX4 _ _ _ _ _)

theorem CT_GenMatrix4x (tSize : Nat) (a : Fam VMat) (a' : Fam VMat) (seed : Fam (List Byte)) (seed' : Fam (List Byte)) :
    CT (Saber.Leak.X4.GenMatrix4x tSize a seed) (Saber.Leak.X4.GenMatrix4x tSize a' seed') := by
  unfold Saber.Leak.X4.GenMatrix4x
  repeat ctstep
macro_rules | `(tactic| ctstep) => `(tactic| with_reducible exact Saber.Leak.X4.CT_GenMatrix4x _ _ _ _ _)

theorem CT_GenSecret4x (tSize : Nat) (r : Fam (List (List (BitVec 16)))) (r' : Fam (List (List (BitVec 16)))) (seed : Fam (List Byte)) (seed' : Fam (List Byte)) (seedOff : Nat) :
    CT (Saber.Leak.X4.GenSecret4x tSize r seed seedOff) (Saber.Leak.X4.GenSecret4x tSize r' seed' seedOff) := by
  unfold Saber.Leak.X4.GenSecret4x
  repeat ctstep
macro_rules | `(tactic| ctstep) => `(tactic| with_reducible exact Saber.Leak.X4.CT_GenSecret4x _ _ _ _ _ _)

theorem CT_loadVec4x (dst : Fam (List (List Avx.Vec))) (dst' : Fam (List (List Avx.Vec))) (src : Fam (List (List (BitVec 16)))) (src' : Fam (List (List (BitVec 16)))) :
    CT (Saber.Leak.X4.loadVec4x dst src) (Saber.Leak.X4.loadVec4x dst' src') := by
  unfold Saber.Leak.X4.loadVec4x
  repeat ctstep
macro_rules | `(tactic| ctstep) => `(tactic| with_reducible exact Saber.Leak.X4.CT_loadVec4x _ _ _ _)

theorem CT_copyMat4x (dst : Fam VMat) (dst' : Fam VMat) (src : Fam VMat) (src' : Fam VMat) :
    CT (Saber.Leak.X4.copyMat4x dst src) (Saber.Leak.X4.copyMat4x dst' src') := by
  unfold Saber.Leak.X4.copyMat4x
  repeat ctstep
macro_rules | `(tactic| ctstep) => `(tactic| with_reducible exact Saber.Leak.X4.CT_copyMat4x _ _ _ _)

theorem CT_clearVV4x (res : Fam (List (List Avx.Vec))) (res' : Fam (List (List Avx.Vec))) :
    CT (Saber.Leak.X4.clearVV4x res) (Saber.Leak.X4.clearVV4x res') := by
  unfold Saber.Leak.X4.clearVV4x
  repeat ctstep
macro_rules | `(tactic| ctstep) => `(tactic| with_reducible exact Saber.Leak.X4.CT_clearVV4x _ _)

theorem CT_clear4x (v : Fam (List Avx.Vec)) (v' : Fam (List Avx.Vec)) :
    CT (Saber.Leak.X4.clear4x v) (Saber.Leak.X4.clear4x v') := by
  unfold Saber.Leak.X4.clear4x
  repeat ctstep
macro_rules | `(tactic| ctstep) => `(tactic| with_reducible exact Saber.Leak.X4.CT_clear4x _ _)

theorem CT_evalAll4x (sk_avx : Fam (List (List Avx.Vec))) (sk_avx' : Fam (List (List Avx.Vec))) (b_bucket : Fam (List (List Avx.Vec))) (b_bucket' : Fam (List (List Avx.Vec))) :
    CT (Saber.Leak.X4.evalAll4x sk_avx b_bucket) (Saber.Leak.X4.evalAll4x sk_avx' b_bucket') := by
  unfold Saber.Leak.X4.evalAll4x
  repeat ctstep
macro_rules | `(tactic| ctstep) => `(tactic| with_reducible exact Saber.Leak.X4.CT_evalAll4x _ _ _ _)

theorem CT_truncVec4x (res : Fam (List (List Avx.Vec))) (res' : Fam (List (List Avx.Vec))) :
    CT (Saber.Leak.X4.truncVec4x res) (Saber.Leak.X4.truncVec4x res') := by
  unfold Saber.Leak.X4.truncVec4x
  repeat ctstep
macro_rules | `(tactic| ctstep) => `(tactic| with_reducible exact Saber.Leak.X4.CT_truncVec4x _ _)

theorem CT_storeVec4x (dst : Fam (List (List (BitVec 16)))) (dst' : Fam (List (List (BitVec 16)))) (v : Fam (List (List Avx.Vec))) (v' : Fam (List (List Avx.Vec))) :
    CT (Saber.Leak.X4.storeVec4x dst v) (Saber.Leak.X4.storeVec4x dst' v') := by
  unfold Saber.Leak.X4.storeVec4x
  repeat ctstep
macro_rules | `(tactic| ctstep) => `(tactic| with_reducible exact Saber.Leak.X4.CT_storeVec4x _ _ _ _)

theorem CT_storeRow4x (row : Fam (List (BitVec 16))) (row' : Fam (List (BitVec 16))) (v : Fam (List Avx.Vec)) (v' : Fam (List Avx.Vec)) :
    CT (Saber.Leak.X4.storeRow4x row v) (Saber.Leak.X4.storeRow4x row' v') := by
  unfold Saber.Leak.X4.storeRow4x
  repeat ctstep
macro_rules | `(tactic| ctstep) => `(tactic| with_reducible exact Saber.Leak.X4.CT_storeRow4x _ _ _ _)

theorem CT_storeTemp4x (temp : Fam (List (List (BitVec 16)))) (temp' : Fam (List (List (BitVec 16)))) (v : Fam (List Avx.Vec)) (v' : Fam (List Avx.Vec)) :
    CT (Saber.Leak.X4.storeTemp4x temp v) (Saber.Leak.X4.storeTemp4x temp' v') := by
  unfold Saber.Leak.X4.storeTemp4x
  repeat ctstep
macro_rules | `(tactic| ctstep) => `(tactic| with_reducible exact Saber.Leak.X4.CT_storeTemp4x _ _ _ _)

theorem CT_indcpa_kem_keypair (tSize : Nat) (pk : Fam (List Byte)) (pk' : Fam (List Byte)) (sk : Fam (List Byte)) (sk' : Fam (List Byte)) (seed : Fam (List Byte)) (seed' : Fam (List Byte)) (noiseseed : Fam (List Byte)) (noiseseed' : Fam (List Byte)) :
    CT (Saber.Leak.X4.indcpa_kem_keypair tSize pk sk seed noiseseed) (Saber.Leak.X4.indcpa_kem_keypair tSize pk' sk' seed' noiseseed') := by
  unfold Saber.Leak.X4.indcpa_kem_keypair
  repeat ctstep
macro_rules | `(tactic| ctstep) => `(tactic| with_reducible exact Saber.Leak.X4.CT_indcpa_kem_keypair _ _ _ _ _ _ _ _ _)

theorem CT_unpackMsg4x (message : Fam (List (BitVec 16))) (message' : Fam (List (BitVec 16))) (message_received : Fam (List Byte)) (message_received' : Fam (List Byte)) :
    CT (Saber.Leak.X4.unpackMsg4x message message_received) (Saber.Leak.X4.unpackMsg4x message' message_received') := by
  unfold Saber.Leak.X4.unpackMsg4x
  repeat ctstep
macro_rules | `(tactic| ctstep) => `(tactic| with_reducible exact Saber.Leak.X4.CT_unpackMsg4x _ _ _ _)

theorem CT_encodeMessage4x (message_avx : Fam (List Avx.Vec)) (message_avx' : Fam (List Avx.Vec)) (message : Fam (List (BitVec 16))) (message' : Fam (List (BitVec 16))) :
    CT (Saber.Leak.X4.encodeMessage4x message_avx message) (Saber.Leak.X4.encodeMessage4x message_avx' message') := by
  unfold Saber.Leak.X4.encodeMessage4x
  repeat ctstep
macro_rules | `(tactic| ctstep) => `(tactic| with_reducible exact Saber.Leak.X4.CT_encodeMessage4x _ _ _ _)

theorem CT_addH1_4x (v : Fam (List Avx.Vec)) (v' : Fam (List Avx.Vec)) :
    CT (Saber.Leak.X4.addH1_4x v) (Saber.Leak.X4.addH1_4x v') := by
  unfold Saber.Leak.X4.addH1_4x
  repeat ctstep
macro_rules | `(tactic| ctstep) => `(tactic| with_reducible exact Saber.Leak.X4.CT_addH1_4x _ _)

theorem CT_truncEnc4x (v : Fam (List Avx.Vec)) (v' : Fam (List Avx.Vec)) (m : Fam (List Avx.Vec)) (m' : Fam (List Avx.Vec)) :
    CT (Saber.Leak.X4.truncEnc4x v m) (Saber.Leak.X4.truncEnc4x v' m') := by
  unfold Saber.Leak.X4.truncEnc4x
  repeat ctstep
macro_rules | `(tactic| ctstep) => `(tactic| with_reducible exact Saber.Leak.X4.CT_truncEnc4x _ _ _ _)

theorem CT_indcpa_kem_enc (tSize : Nat) (message_received : Fam (List Byte)) (message_received' : Fam (List Byte)) (noiseseed : Fam (List Byte)) (noiseseed' : Fam (List Byte)) (noiseOff : Nat) (pk : Fam (List Byte)) (pk' : Fam (List Byte)) (pkOff : Nat) (ciphertext : Fam (List Byte)) (ciphertext' : Fam (List Byte)) :
    CT (Saber.Leak.X4.indcpa_kem_enc tSize message_received noiseseed noiseOff pk pkOff ciphertext) (Saber.Leak.X4.indcpa_kem_enc tSize message_received' noiseseed' noiseOff pk' pkOff ciphertext') := by
  unfold Saber.Leak.X4.indcpa_kem_enc
  repeat ctstep
macro_rules | `(tactic| ctstep) => `(tactic| with_reducible exact Saber.Leak.X4.CT_indcpa_kem_enc _ _ _ _ _ _ _ _ _ _ _)

theorem CT_decRound4x (m : Fam (List (BitVec 16))) (m' : Fam (List (BitVec 16))) (op : Fam (List (BitVec 16))) (op' : Fam (List (BitVec 16))) :
    CT (Saber.Leak.X4.decRound4x m op) (Saber.Leak.X4.decRound4x m' op') := by
  unfold Saber.Leak.X4.decRound4x
  repeat ctstep
macro_rules | `(tactic| ctstep) => `(tactic| with_reducible exact Saber.Leak.X4.CT_decRound4x _ _ _ _)

theorem CT_indcpa_kem_dec (sk : Fam (List Byte)) (sk' : Fam (List Byte)) (ciphertext : Fam (List Byte)) (ciphertext' : Fam (List Byte)) (message_dec : Fam (List Byte)) (message_dec' : Fam (List Byte)) :
    CT (Saber.Leak.X4.indcpa_kem_dec sk ciphertext message_dec) (Saber.Leak.X4.indcpa_kem_dec sk' ciphertext' message_dec') := by
  unfold Saber.Leak.X4.indcpa_kem_dec
  repeat ctstep
macro_rules | `(tactic| ctstep) => `(tactic| with_reducible exact Saber.Leak.X4.CT_indcpa_kem_dec _ _ _ _ _ _)

theorem CT_crypto_kem_keypair4x {σ τ : Type} (tSize : Nat) (rb : RandomBytes σ) (rb' : RandomBytes τ) (pk : Fam (List Byte)) (pk' : Fam (List Byte)) (sk : Fam (List Byte)) (sk' : Fam (List Byte)) (st : σ) (st' : τ) :
    CT (Saber.Leak.X4.crypto_kem_keypair4x tSize rb pk sk st) (Saber.Leak.X4.crypto_kem_keypair4x tSize rb' pk' sk' st') := by
  unfold Saber.Leak.X4.crypto_kem_keypair4x
  repeat ctstep
macro_rules | `(tactic| ctstep) => `(tactic| with_reducible exact Saber.Leak.X4.CT_crypto_kem_keypair4x _ _ _ _ _ _ _ _ _)

theorem CT_crypto_kem_enc4x {σ τ : Type} (tSize : Nat) (rb : RandomBytes σ) (rb' : RandomBytes τ) (c : Fam (List Byte)) (c' : Fam (List Byte)) (k : Fam (List Byte)) (k' : Fam (List Byte)) (pk : Fam (List Byte)) (pk' : Fam (List Byte)) (st : σ) (st' : τ) :
    CT (Saber.Leak.X4.crypto_kem_enc4x tSize rb c k pk st) (Saber.Leak.X4.crypto_kem_enc4x tSize rb' c' k' pk' st') := by
  unfold Saber.Leak.X4.crypto_kem_enc4x
  repeat ctstep
macro_rules | `(tactic| ctstep) => `(tactic| with_reducible exact Saber.Leak.X4.CT_crypto_kem_enc4x _ _ _ _ _ _ _ _ _ _ _)

theorem CT_crypto_kem_dec4x (tSize : Nat) (k : Fam (List Byte)) (k' : Fam (List Byte)) (c : Fam (List Byte)) (c' : Fam (List Byte)) (sk : Fam (List Byte)) (sk' : Fam (List Byte)) :
    CT (Saber.Leak.X4.crypto_kem_dec4x tSize k c sk) (Saber.Leak.X4.crypto_kem_dec4x tSize k' c' sk') := by
  unfold Saber.Leak.X4.crypto_kem_dec4x
  repeat ctstep
macro_rules | `(tactic| ctstep) => `(tactic| with_reducible exact Saber.Leak.X4.CT_crypto_kem_dec4x _ _ _ _ _ _ _)

theorem CT_crypto_kem_keypairWith {σ τ : Type} (tSize : Nat) (rb : RandomBytes σ) (rb' : RandomBytes τ) (pk : List Byte) (pk' : List Byte) (sk : List Byte) (sk' : List Byte) (st : σ) (st' : τ) :
    CT (Saber.Leak.X4.crypto_kem_keypairWith tSize rb pk sk st) (Saber.Leak.X4.crypto_kem_keypairWith tSize rb' pk' sk' st') := by
  unfold Saber.Leak.X4.crypto_kem_keypairWith
  repeat ctstep
macro_rules | `(tactic| ctstep) => `(tactic| with_reducible exact Saber.Leak.X4.CT_crypto_kem_keypairWith _ _ _ _ _ _ _ _ _)

theorem CT_crypto_kem_encWith {σ τ : Type} (tSize : Nat) (rb : RandomBytes σ) (rb' : RandomBytes τ) (c : List Byte) (c' : List Byte) (k : List Byte) (k' : List Byte) (pk : List Byte) (pk' : List Byte) (st : σ) (st' : τ) :
    CT (Saber.Leak.X4.crypto_kem_encWith tSize rb c k pk st) (Saber.Leak.X4.crypto_kem_encWith tSize rb' c' k' pk' st') := by
  unfold Saber.Leak.X4.crypto_kem_encWith
  repeat ctstep
macro_rules | `(tactic| ctstep) => `(tactic| with_reducible exact Saber.Leak.X4.CT_crypto_kem_encWith _ _ _ _ _ _ _ _ _ _ _)

theorem CT_crypto_kem_decWith (tSize : Nat) (k : List Byte) (k' : List Byte) (c : List Byte) (c' : List Byte) (sk : List Byte) (sk' : List Byte) :
    CT (Saber.Leak.X4.crypto_kem_decWith tSize k c sk) (Saber.Leak.X4.crypto_kem_decWith tSize k' c' sk') := by
  unfold Saber.Leak.X4.crypto_kem_decWith
  repeat ctstep
macro_rules | `(tactic| ctstep) => `(tactic| with_reducible exact Saber.Leak.X4.CT_crypto_kem_decWith _ _ _ _ _ _ _)

end Saber.Leak.X4
