import Verif.Model.Leak.Avx
import Verif.Proof.Leak.Erase
/-! # AVX2: leaving out the events gives the model -/
set_option linter.unusedSectionVars false

namespace Saber.Leak.Avx
open Saber.Avx

theorem E_ok {α : Type} (a : α) : E (pure a) (Except.ok a) := rfl
macro_rules | `(tactic| estep) => `(tactic| with_reducible exact Saber.Leak.Avx.E_ok _)
theorem E_evalEx (s : St) (e : Ex) : E (Saber.Leak.Avx.evalEx s e) (e.eval s) := by
  induction e with
  | v x => exact E.lift _
  | ix p i => exact E.bind (E.rd _ _) fun _ => E.rd _ _
  | set1 n => exact E.pure _
  | op2 o a b iha ihb => exact E.bind iha fun _ => E.bind ihb fun _ => E.pure _
  | slli a n ih => exact E.bind ih fun _ => E.pure _
  | srli a n ih => exact E.bind ih fun _ => E.pure _
theorem E_execStmt (t : Stmt) (s : St) : E (Saber.Leak.Avx.execStmt t s) (t.exec s) := by
  unfold Saber.Leak.Avx.execStmt Saber.Avx.Stmt.exec
  refine E.bind (E_evalEx s t.e) fun y => ?_
  cases t.l with
  | v x => exact E.bind (E.lift _) fun _ => E.pure _
  | ix p i => exact E.bind (E.rd _ _) fun _ => E.bind (E.wr _ _ _) fun _ => E.bind (E.wr _ _ _) fun _ => E.pure _
  | _ => exact E.lift _
theorem E_exec (l : List Stmt) : ∀ s : St, E (Saber.Leak.Avx.exec l s) (Saber.Avx.exec l s) := by
  induction l with
  | nil => exact fun _ => E.pure _
  | cons t l ih => exact fun s => E.bind (E_execStmt t s) ih
theorem E_run (n : Nat) (arrs : List (List Vec)) (l : List Stmt) : E (Saber.Leak.Avx.run n arrs l) (Saber.Avx.run n arrs l) :=
  E.bind (E_exec l _) fun _ => E.pure _
macro_rules | `(tactic| estep) => `(tactic| with_reducible exact Saber.Leak.Avx.E_run _ _ _)
theorem E_onSlice {α : Type} (m : List α) (off : Nat) {f : List α → LM (List α)} {g : List α → CM (List α)} (h : ∀ x, E (f x) (g x)) :
    E (Saber.Leak.Avx.onSlice m off f) (Saber.Avx.onSlice m off g) :=
  E.bind (h (m.drop off)) fun _ => E.pure _
macro_rules | `(tactic| estep) => `(tactic| with_reducible refine Saber.Leak.Avx.E_onSlice _ _ ?_)
theorem E_loadu (row : List (BitVec 16)) (off : Nat) : E (Saber.Leak.Avx.loadu row off) (Saber.Avx.loadu row off) := rfl
macro_rules | `(tactic| estep) => `(tactic| with_reducible exact Saber.Leak.Avx.E_loadu _ _)
/-- Leaving out the events of the linked functions gives the linked functions of the model. -/
class LibE (l : LLib) (l' : Lib) : Prop where
  /-- see above -/
  prf : ∀ out o n inp i m, E (l.prf out o n inp i m) (l'.prf out o n inp i m)
  /-- see above -/
  hash_h : ∀ out o inp i m, E (l.hash_h out o inp i m) (l'.hash_h out o inp i m)
  /-- see above -/
  hash_g : ∀ out o inp i m, E (l.hash_g out o inp i m) (l'.hash_g out o inp i m)
macro_rules | `(tactic| estep) => `(tactic| with_reducible exact Saber.Leak.Avx.LibE.prf _ _ _ _ _ _)
macro_rules | `(tactic| estep) => `(tactic| with_reducible exact Saber.Leak.Avx.LibE.hash_h _ _ _ _ _)
macro_rules | `(tactic| estep) => `(tactic| with_reducible exact Saber.Leak.Avx.LibE.hash_g _ _ _ _ _)
theorem E_load (p : List Byte) (off : Nat) : E (Saber.Leak.Avx.AesNi.load p off) (Saber.Avx.AesNi.load p off) := rfl
macro_rules | `(tactic| estep) => `(tactic| with_reducible exact Saber.Leak.Avx.E_load _ _)
theorem E_store (p : List Byte) (off : Nat) (a : List Byte) : E (Saber.Leak.Avx.AesNi.store p off a) (Saber.Avx.AesNi.store p off a) := rfl
macro_rules | `(tactic| estep) => `(tactic| with_reducible exact Saber.Leak.Avx.E_store _ _ _)

namespace Matrix
open Saber.Avx.Matrix

end Matrix

theorem E_transpose_n1 (M : List Vec) : E (Saber.Leak.Avx.transpose_n1 M) (Saber.Avx.transpose_n1 M) := by
  unfold Saber.Leak.Avx.transpose_n1 Saber.Avx.transpose_n1
  repeat estep
macro_rules | `(tactic| estep) => `(tactic| with_reducible exact Saber.Leak.Avx.E_transpose_n1 _)

namespace Scm
open Saber.Avx.Scm

end Scm

theorem E_schoolbook_avx_new3_acc (a : List Vec) (b : List Vec) (c_avx : List Vec) : E (Saber.Leak.Avx.schoolbook_avx_new3_acc a b c_avx) (Saber.Avx.schoolbook_avx_new3_acc a b c_avx) := by
  unfold Saber.Leak.Avx.schoolbook_avx_new3_acc Saber.Avx.schoolbook_avx_new3_acc
  repeat estep
macro_rules | `(tactic| estep) => `(tactic| with_reducible exact Saber.Leak.Avx.E_schoolbook_avx_new3_acc _ _ _)

theorem E_schoolbook_avx_new2 (a : List Vec) (b : List Vec) (c_avx : List Vec) : E (Saber.Leak.Avx.schoolbook_avx_new2 a b c_avx) (Saber.Avx.schoolbook_avx_new2 a b c_avx) := by
  unfold Saber.Leak.Avx.schoolbook_avx_new2 Saber.Avx.schoolbook_avx_new2
  repeat estep
macro_rules | `(tactic| estep) => `(tactic| with_reducible exact Saber.Leak.Avx.E_schoolbook_avx_new2 _ _ _)

namespace Eval
open Saber.Avx.Eval

end Eval

namespace KEval
open Saber.Avx.KEval

end KEval

theorem E_transposes (n : Nat) (m : List Vec) : E (Saber.Leak.Avx.transposes n m) (Saber.Avx.transposes n m) := by
  unfold Saber.Leak.Avx.transposes Saber.Avx.transposes
  repeat estep
macro_rules | `(tactic| estep) => `(tactic| with_reducible exact Saber.Leak.Avx.E_transposes _ _)

theorem E_batch_64coefficient_multiplications_new (a : List Vec) (b_bucket : List Vec) (c_bucket : List Vec) (f : Nat) : E (Saber.Leak.Avx.batch_64coefficient_multiplications_new a b_bucket c_bucket f) (Saber.Avx.batch_64coefficient_multiplications_new a b_bucket c_bucket f) := by
  unfold Saber.Leak.Avx.batch_64coefficient_multiplications_new Saber.Avx.batch_64coefficient_multiplications_new
  repeat estep
macro_rules | `(tactic| estep) => `(tactic| with_reducible exact Saber.Leak.Avx.E_batch_64coefficient_multiplications_new _ _ _ _)

theorem E_KARA_eval (b : List Vec) (b_bucket : List Vec) : E (Saber.Leak.Avx.KARA_eval b b_bucket) (Saber.Avx.KARA_eval b b_bucket) := by
  unfold Saber.Leak.Avx.KARA_eval Saber.Avx.KARA_eval
  repeat estep
macro_rules | `(tactic| estep) => `(tactic| with_reducible exact Saber.Leak.Avx.E_KARA_eval _ _)

namespace KInterpol
open Saber.Avx.KInterpol

end KInterpol

theorem E_KARA_interpol (c_bucket : List Vec) (w : List (List Vec)) : E (Saber.Leak.Avx.KARA_interpol c_bucket w) (Saber.Avx.KARA_interpol c_bucket w) := by
  unfold Saber.Leak.Avx.KARA_interpol Saber.Avx.KARA_interpol
  repeat estep
macro_rules | `(tactic| estep) => `(tactic| with_reducible exact Saber.Leak.Avx.E_KARA_interpol _ _)

namespace TEval
open Saber.Avx.TEval

end TEval

theorem E_toom_cook_4way_avx_n1 (a_avx : List Vec) (b_bucket : List Vec) (c_bucket : List Vec) (f : Nat) : E (Saber.Leak.Avx.toom_cook_4way_avx_n1 a_avx b_bucket c_bucket f) (Saber.Avx.toom_cook_4way_avx_n1 a_avx b_bucket c_bucket f) := by
  unfold Saber.Leak.Avx.toom_cook_4way_avx_n1 Saber.Avx.toom_cook_4way_avx_n1
  repeat estep
macro_rules | `(tactic| estep) => `(tactic| with_reducible exact Saber.Leak.Avx.E_toom_cook_4way_avx_n1 _ _ _ _)

namespace TEvalB
open Saber.Avx.TEvalB

end TEvalB

theorem E_TC_eval (b_avx : List Vec) (b_bucket : List Vec) : E (Saber.Leak.Avx.TC_eval b_avx b_bucket) (Saber.Avx.TC_eval b_avx b_bucket) := by
  unfold Saber.Leak.Avx.TC_eval Saber.Avx.TC_eval
  repeat estep
macro_rules | `(tactic| estep) => `(tactic| with_reducible exact Saber.Leak.Avx.E_TC_eval _ _)

namespace TInterpol
open Saber.Avx.TInterpol

end TInterpol

theorem E_TC_interpol (c_bucket : List Vec) (res_avx : List Vec) : E (Saber.Leak.Avx.TC_interpol c_bucket res_avx) (Saber.Avx.TC_interpol c_bucket res_avx) := by
  unfold Saber.Leak.Avx.TC_interpol Saber.Avx.TC_interpol
  repeat estep
macro_rules | `(tactic| estep) => `(tactic| with_reducible exact Saber.Leak.Avx.E_TC_interpol _ _)

theorem E_SABER_pack (P : PSet) (bytes : List Byte) (data : List (BitVec 16)) : E (Saber.Leak.Avx.SABER_pack P bytes data) (Saber.Avx.SABER_pack P bytes data) := by
  unfold Saber.Leak.Avx.SABER_pack Saber.Avx.SABER_pack
  cases P <;> repeat estep
macro_rules | `(tactic| estep) => `(tactic| with_reducible exact Saber.Leak.Avx.E_SABER_pack _ _ _)

theorem E_SABER_un_pack (P : PSet) (bytes : List Byte) (data : List (BitVec 16)) : E (Saber.Leak.Avx.SABER_un_pack P bytes data) (Saber.Avx.SABER_un_pack P bytes data) := by
  unfold Saber.Leak.Avx.SABER_un_pack Saber.Avx.SABER_un_pack
  cases P <;> repeat estep
macro_rules | `(tactic| estep) => `(tactic| with_reducible exact Saber.Leak.Avx.E_SABER_un_pack _ _ _)

theorem E_POLVECp2BS (P : PSet) (bytes : List Byte) (data : List (List (BitVec 16))) : E (Saber.Leak.Avx.POLVECp2BS P bytes data) (Saber.Avx.POLVECp2BS P bytes data) := by
  unfold Saber.Leak.Avx.POLVECp2BS Saber.Avx.POLVECp2BS
  repeat estep
macro_rules | `(tactic| estep) => `(tactic| with_reducible exact Saber.Leak.Avx.E_POLVECp2BS _ _ _)

theorem E_POLVECq2BS (P : PSet) (bytes : List Byte) (data : List (List (BitVec 16))) : E (Saber.Leak.Avx.POLVECq2BS P bytes data) (Saber.Avx.POLVECq2BS P bytes data) := by
  unfold Saber.Leak.Avx.POLVECq2BS Saber.Avx.POLVECq2BS
  repeat estep
macro_rules | `(tactic| estep) => `(tactic| with_reducible exact Saber.Leak.Avx.E_POLVECq2BS _ _ _)

theorem E_BS2POLVECp (P : PSet) (bytes : List Byte) (off : Nat) (data : List (List (BitVec 16))) : E (Saber.Leak.Avx.BS2POLVECp P bytes off data) (Saber.Avx.BS2POLVECp P bytes off data) := by
  unfold Saber.Leak.Avx.BS2POLVECp Saber.Avx.BS2POLVECp
  repeat estep
macro_rules | `(tactic| estep) => `(tactic| with_reducible exact Saber.Leak.Avx.E_BS2POLVECp _ _ _ _)

theorem E_BS2POLVECq (P : PSet) (bytes : List Byte) (off : Nat) (data : List (List (BitVec 16))) : E (Saber.Leak.Avx.BS2POLVECq P bytes off data) (Saber.Avx.BS2POLVECq P bytes off data) := by
  unfold Saber.Leak.Avx.BS2POLVECq Saber.Avx.BS2POLVECq
  repeat estep
macro_rules | `(tactic| estep) => `(tactic| with_reducible exact Saber.Leak.Avx.E_BS2POLVECq _ _ _ _)

theorem E_POLVEC2BS (P : PSet) (bytes : List Byte) (data : List (List (BitVec 16))) (modulus : Nat) : E (Saber.Leak.Avx.POLVEC2BS P bytes data modulus) (Saber.Avx.POLVEC2BS P bytes data modulus) := by
  unfold Saber.Leak.Avx.POLVEC2BS Saber.Avx.POLVEC2BS
  repeat estep
macro_rules | `(tactic| estep) => `(tactic| with_reducible exact Saber.Leak.Avx.E_POLVEC2BS _ _ _ _)

theorem E_BS2POLVEC (P : PSet) (bytes : List Byte) (off : Nat) (data : List (List (BitVec 16))) (modulus : Nat) : E (Saber.Leak.Avx.BS2POLVEC P bytes off data modulus) (Saber.Avx.BS2POLVEC P bytes off data modulus) := by
  unfold Saber.Leak.Avx.BS2POLVEC Saber.Avx.BS2POLVEC
  repeat estep
macro_rules | `(tactic| estep) => `(tactic| with_reducible exact Saber.Leak.Avx.E_BS2POLVEC _ _ _ _ _)

theorem E_cbd (P : PSet) (r : List (BitVec 16)) (buf : List Byte) (off : Nat) : E (Saber.Leak.Avx.cbd P r buf off) (Saber.Avx.cbd P r buf off) := by
  unfold Saber.Leak.Avx.cbd Saber.Avx.cbd
  cases P <;> repeat estep
macro_rules | `(tactic| estep) => `(tactic| with_reducible exact Saber.Leak.Avx.E_cbd _ _ _ _)

theorem E_maskstore (row : List (BitVec 16)) (off : Nat) (mask : Nat → BitVec 32) (v : Vec) : E (Saber.Leak.Avx.maskstore row off mask v) (Saber.Avx.maskstore row off mask v) := by
  unfold Saber.Leak.Avx.maskstore Saber.Avx.maskstore
  repeat estep
macro_rules | `(tactic| estep) => `(tactic| with_reducible exact Saber.Leak.Avx.E_maskstore _ _ _ _)

theorem E_loadRow (dst : List Vec) (row : List (BitVec 16)) : E (Saber.Leak.Avx.loadRow dst row) (Saber.Avx.loadRow dst row) := by
  unfold Saber.Leak.Avx.loadRow Saber.Avx.loadRow
  repeat estep
macro_rules | `(tactic| estep) => `(tactic| with_reducible exact Saber.Leak.Avx.E_loadRow _ _)

theorem E_loadVec (P : PSet) (dst : List (List Vec)) (src : List (List (BitVec 16))) : E (Saber.Leak.Avx.loadVec P dst src) (Saber.Avx.loadVec P dst src) := by
  unfold Saber.Leak.Avx.loadVec Saber.Avx.loadVec
  repeat estep
macro_rules | `(tactic| estep) => `(tactic| with_reducible exact Saber.Leak.Avx.E_loadVec _ _ _)

theorem E_loadMat (P : PSet) (dst : List (List (List Vec))) (src : List (List (List (BitVec 16)))) : E (Saber.Leak.Avx.loadMat P dst src) (Saber.Avx.loadMat P dst src) := by
  unfold Saber.Leak.Avx.loadMat Saber.Avx.loadMat
  repeat estep
macro_rules | `(tactic| estep) => `(tactic| with_reducible exact Saber.Leak.Avx.E_loadMat _ _ _)

theorem E_storeRow (row : List (BitVec 16)) (v : List Vec) : E (Saber.Leak.Avx.storeRow row v) (Saber.Avx.storeRow row v) := by
  unfold Saber.Leak.Avx.storeRow Saber.Avx.storeRow
  repeat estep
macro_rules | `(tactic| estep) => `(tactic| with_reducible exact Saber.Leak.Avx.E_storeRow _ _)

theorem E_storeVec (P : PSet) (dst : List (List (BitVec 16))) (v : List (List Vec)) : E (Saber.Leak.Avx.storeVec P dst v) (Saber.Avx.storeVec P dst v) := by
  unfold Saber.Leak.Avx.storeVec Saber.Avx.storeVec
  repeat estep
macro_rules | `(tactic| estep) => `(tactic| with_reducible exact Saber.Leak.Avx.E_storeVec _ _ _)

theorem E_BS2POLq (bytes : List Byte) (off : Nat) (data : List (BitVec 16)) : E (Saber.Leak.Avx.BS2POLq bytes off data) (Saber.Avx.BS2POLq bytes off data) := by
  unfold Saber.Leak.Avx.BS2POLq Saber.Avx.BS2POLq
  repeat estep
macro_rules | `(tactic| estep) => `(tactic| with_reducible exact Saber.Leak.Avx.E_BS2POLq _ _ _)

theorem E_modRow (dst : List (BitVec 16)) (temp_ar : List (BitVec 16)) : E (Saber.Leak.Avx.modRow dst temp_ar) (Saber.Avx.modRow dst temp_ar) := by
  unfold Saber.Leak.Avx.modRow Saber.Avx.modRow
  repeat estep
macro_rules | `(tactic| estep) => `(tactic| with_reducible exact Saber.Leak.Avx.E_modRow _ _)

theorem E_GenMatrix (lib : LLib) (lib' : Lib) [LibE lib lib'] (P : PSet) (a : List (List (List (BitVec 16)))) (seed : List Byte) : E (Saber.Leak.Avx.GenMatrix lib P a seed) (Saber.Avx.GenMatrix lib' P a seed) := by
  unfold Saber.Leak.Avx.GenMatrix Saber.Avx.GenMatrix
  repeat estep
macro_rules | `(tactic| estep) => `(tactic| with_reducible exact Saber.Leak.Avx.E_GenMatrix _ _ _ _ _)

theorem E_GenSecret (lib : LLib) (lib' : Lib) [LibE lib lib'] (P : PSet) (r : List (List (BitVec 16))) (seed : List Byte) (seedOff : Nat) : E (Saber.Leak.Avx.GenSecret lib P r seed seedOff) (Saber.Avx.GenSecret lib' P r seed seedOff) := by
  unfold Saber.Leak.Avx.GenSecret Saber.Avx.GenSecret
  repeat estep
macro_rules | `(tactic| estep) => `(tactic| with_reducible exact Saber.Leak.Avx.E_GenSecret _ _ _ _ _ _)

theorem E_evalAll (P : PSet) (sk_avx : List (List Vec)) (b_bucket : List (List Vec)) : E (Saber.Leak.Avx.evalAll P sk_avx b_bucket) (Saber.Avx.evalAll P sk_avx b_bucket) := by
  unfold Saber.Leak.Avx.evalAll Saber.Avx.evalAll
  repeat estep
macro_rules | `(tactic| estep) => `(tactic| with_reducible exact Saber.Leak.Avx.E_evalAll _ _ _)

theorem E_matrix_vector_mul (P : PSet) (a : List (List (List Vec))) (b_bucket : List (List Vec)) (res_avx : List (List Vec)) (isTranspose : Int) : E (Saber.Leak.Avx.matrix_vector_mul P a b_bucket res_avx isTranspose) (Saber.Avx.matrix_vector_mul P a b_bucket res_avx isTranspose) := by
  unfold Saber.Leak.Avx.matrix_vector_mul Saber.Avx.matrix_vector_mul
  repeat estep
macro_rules | `(tactic| estep) => `(tactic| with_reducible exact Saber.Leak.Avx.E_matrix_vector_mul _ _ _ _ _)

theorem E_vector_vector_mul (P : PSet) (a_avx : List (List Vec)) (b_bucket : List (List Vec)) (res_avx : List Vec) : E (Saber.Leak.Avx.vector_vector_mul P a_avx b_bucket res_avx) (Saber.Avx.vector_vector_mul P a_avx b_bucket res_avx) := by
  unfold Saber.Leak.Avx.vector_vector_mul Saber.Avx.vector_vector_mul
  repeat estep
macro_rules | `(tactic| estep) => `(tactic| with_reducible exact Saber.Leak.Avx.E_vector_vector_mul _ _ _ _)

theorem E_truncVec (P : PSet) (res_avx : List (List Vec)) : E (Saber.Leak.Avx.truncVec P res_avx) (Saber.Avx.truncVec P res_avx) := by
  unfold Saber.Leak.Avx.truncVec Saber.Avx.truncVec
  repeat estep
macro_rules | `(tactic| estep) => `(tactic| with_reducible exact Saber.Leak.Avx.E_truncVec _ _)

theorem E_indcpa_kem_keypair {σ : Type} (lib : LLib) (lib' : Lib) [LibE lib lib'] (P : PSet) (rb : RandomBytes σ) (pk : List Byte) (sk : List Byte) (st : σ) : E (Saber.Leak.Avx.indcpa_kem_keypair lib P rb pk sk st) (Saber.Avx.indcpa_kem_keypair lib' P rb pk sk st) := by
  unfold Saber.Leak.Avx.indcpa_kem_keypair Saber.Avx.indcpa_kem_keypair
  repeat estep
macro_rules | `(tactic| estep) => `(tactic| with_reducible exact Saber.Leak.Avx.E_indcpa_kem_keypair _ _ _ _ _ _ _)

theorem E_addH1 (v : List Vec) : E (Saber.Leak.Avx.addH1 v) (Saber.Avx.addH1 v) := by
  unfold Saber.Leak.Avx.addH1 Saber.Avx.addH1
  repeat estep
macro_rules | `(tactic| estep) => `(tactic| with_reducible exact Saber.Leak.Avx.E_addH1 _)

theorem E_encodeMessage (message_avx : List Vec) (message : List (BitVec 16)) : E (Saber.Leak.Avx.encodeMessage message_avx message) (Saber.Avx.encodeMessage message_avx message) := by
  unfold Saber.Leak.Avx.encodeMessage Saber.Avx.encodeMessage
  repeat estep
macro_rules | `(tactic| estep) => `(tactic| with_reducible exact Saber.Leak.Avx.E_encodeMessage _ _)

theorem E_truncEnc (P : PSet) (vprime_avx : List Vec) (message_avx : List Vec) : E (Saber.Leak.Avx.truncEnc P vprime_avx message_avx) (Saber.Avx.truncEnc P vprime_avx message_avx) := by
  unfold Saber.Leak.Avx.truncEnc Saber.Avx.truncEnc
  repeat estep
macro_rules | `(tactic| estep) => `(tactic| with_reducible exact Saber.Leak.Avx.E_truncEnc _ _ _)

theorem E_indcpa_kem_enc (lib : LLib) (lib' : Lib) [LibE lib lib'] (P : PSet) (message_received : List Byte) (mOff : Nat) (noiseseed : List Byte) (noiseOff : Nat) (pk : List Byte) (pkOff : Nat) (ciphertext : List Byte) : E (Saber.Leak.Avx.indcpa_kem_enc lib P message_received mOff noiseseed noiseOff pk pkOff ciphertext) (Saber.Avx.indcpa_kem_enc lib' P message_received mOff noiseseed noiseOff pk pkOff ciphertext) := by
  unfold Saber.Leak.Avx.indcpa_kem_enc Saber.Avx.indcpa_kem_enc
  repeat estep
macro_rules | `(tactic| estep) => `(tactic| with_reducible exact Saber.Leak.Avx.E_indcpa_kem_enc _ _ _ _ _ _ _ _ _ _)

theorem E_decRound (P : PSet) (message_dec_unpacked : List (BitVec 16)) (op : List (BitVec 16)) : E (Saber.Leak.Avx.decRound P message_dec_unpacked op) (Saber.Avx.decRound P message_dec_unpacked op) := by
  unfold Saber.Leak.Avx.decRound Saber.Avx.decRound
  repeat estep
macro_rules | `(tactic| estep) => `(tactic| with_reducible exact Saber.Leak.Avx.E_decRound _ _ _)

theorem E_POL2MSG (message_dec_unpacked : List (BitVec 16)) (message_dec : List Byte) : E (Saber.Leak.Avx.POL2MSG message_dec_unpacked message_dec) (Saber.Avx.POL2MSG message_dec_unpacked message_dec) := by
  unfold Saber.Leak.Avx.POL2MSG Saber.Avx.POL2MSG
  repeat estep
macro_rules | `(tactic| estep) => `(tactic| with_reducible exact Saber.Leak.Avx.E_POL2MSG _ _)

theorem E_clear (v : List Vec) : E (Saber.Leak.Avx.clear v) (Saber.Avx.clear v) := by
  unfold Saber.Leak.Avx.clear Saber.Avx.clear
  repeat estep
macro_rules | `(tactic| estep) => `(tactic| with_reducible exact Saber.Leak.Avx.E_clear _)

theorem E_indcpa_kem_dec (P : PSet) (sk : List Byte) (ciphertext : List Byte) (message_dec : List Byte) : E (Saber.Leak.Avx.indcpa_kem_dec P sk ciphertext message_dec) (Saber.Avx.indcpa_kem_dec P sk ciphertext message_dec) := by
  unfold Saber.Leak.Avx.indcpa_kem_dec Saber.Avx.indcpa_kem_dec
  repeat estep
macro_rules | `(tactic| estep) => `(tactic| with_reducible exact Saber.Leak.Avx.E_indcpa_kem_dec _ _ _ _)

theorem E_crypto_kem_keypair {σ : Type} (lib : LLib) (lib' : Lib) [LibE lib lib'] (P : PSet) (rb : RandomBytes σ) (pk : List Byte) (sk : List Byte) (st : σ) : E (Saber.Leak.Avx.crypto_kem_keypair lib P rb pk sk st) (Saber.Avx.crypto_kem_keypair lib' P rb pk sk st) := by
  unfold Saber.Leak.Avx.crypto_kem_keypair Saber.Avx.crypto_kem_keypair
  repeat estep
macro_rules | `(tactic| estep) => `(tactic| with_reducible exact Saber.Leak.Avx.E_crypto_kem_keypair _ _ _ _ _ _ _)

theorem E_crypto_kem_enc {σ : Type} (lib : LLib) (lib' : Lib) [LibE lib lib'] (P : PSet) (rb : RandomBytes σ) (c : List Byte) (k : List Byte) (pk : List Byte) (st : σ) : E (Saber.Leak.Avx.crypto_kem_enc lib P rb c k pk st) (Saber.Avx.crypto_kem_enc lib' P rb c k pk st) := by
  unfold Saber.Leak.Avx.crypto_kem_enc Saber.Avx.crypto_kem_enc
  repeat estep
macro_rules | `(tactic| estep) => `(tactic| with_reducible exact Saber.Leak.Avx.E_crypto_kem_enc _ _ _ _ _ _ _ _)

theorem E_crypto_kem_dec (lib : LLib) (lib' : Lib) [LibE lib lib'] (P : PSet) (k : List Byte) (c : List Byte) (sk : List Byte) : E (Saber.Leak.Avx.crypto_kem_dec lib P k c sk) (Saber.Avx.crypto_kem_dec lib' P k c sk) := by
  unfold Saber.Leak.Avx.crypto_kem_dec Saber.Avx.crypto_kem_dec
  repeat estep
macro_rules | `(tactic| estep) => `(tactic| with_reducible exact Saber.Leak.Avx.E_crypto_kem_dec _ _ _ _ _ _)

namespace AesNi
open Saber.Avx.AesNi

theorem E_BLOCK1 (imm : Byte) (s : Saber.Avx.AesNi.KS) : E (Saber.Leak.Avx.AesNi.BLOCK1 imm s) (Saber.Avx.AesNi.BLOCK1 imm s) := by
  unfold Saber.Leak.Avx.AesNi.BLOCK1 Saber.Avx.AesNi.BLOCK1
  repeat estep
macro_rules | `(tactic| estep) => `(tactic| with_reducible exact Saber.Leak.Avx.AesNi.E_BLOCK1 _ _)

theorem E_BLOCK2 (imm : Byte) (s : Saber.Avx.AesNi.KS) : E (Saber.Leak.Avx.AesNi.BLOCK2 imm s) (Saber.Avx.AesNi.BLOCK2 imm s) := by
  unfold Saber.Leak.Avx.AesNi.BLOCK2 Saber.Avx.AesNi.BLOCK2
  repeat estep
macro_rules | `(tactic| estep) => `(tactic| with_reducible exact Saber.Leak.Avx.AesNi.E_BLOCK2 _ _)

theorem E_aesni_key256_expand (key : List Byte) (off : Nat) (rkeys : List M128) : E (Saber.Leak.Avx.AesNi.aesni_key256_expand key off rkeys) (Saber.Avx.AesNi.aesni_key256_expand key off rkeys) := by
  unfold Saber.Leak.Avx.AesNi.aesni_key256_expand Saber.Avx.AesNi.aesni_key256_expand
  repeat estep
macro_rules | `(tactic| estep) => `(tactic| with_reducible exact Saber.Leak.Avx.AesNi.E_aesni_key256_expand _ _ _)

theorem E_counters8 (n : List Byte) : E (Saber.Leak.Avx.AesNi.counters8 n) (Saber.Avx.AesNi.counters8 n) := by
  unfold Saber.Leak.Avx.AesNi.counters8 Saber.Avx.AesNi.counters8
  repeat estep
macro_rules | `(tactic| estep) => `(tactic| with_reducible exact Saber.Leak.Avx.AesNi.E_counters8 _)

theorem E_aesni_encrypt8 (out : List Byte) (n : List Byte) (rkeys : List M128) : E (Saber.Leak.Avx.AesNi.aesni_encrypt8 out n rkeys) (Saber.Avx.AesNi.aesni_encrypt8 out n rkeys) := by
  unfold Saber.Leak.Avx.AesNi.aesni_encrypt8 Saber.Avx.AesNi.aesni_encrypt8
  repeat estep
macro_rules | `(tactic| estep) => `(tactic| with_reducible exact Saber.Leak.Avx.AesNi.E_aesni_encrypt8 _ _ _)

theorem E_loadNonce (n2 : List Byte) (n : List Byte) : E (Saber.Leak.Avx.AesNi.loadNonce n2 n) (Saber.Avx.AesNi.loadNonce n2 n) := by
  unfold Saber.Leak.Avx.AesNi.loadNonce Saber.Avx.AesNi.loadNonce
  repeat estep
macro_rules | `(tactic| estep) => `(tactic| with_reducible exact Saber.Leak.Avx.AesNi.E_loadNonce _ _)

theorem E_crypto_stream_aes256ctr (out : List Byte) (outOff : Nat) (outlen : Nat) (n : List Byte) (k : List Byte) (kOff : Nat) : E (Saber.Leak.Avx.AesNi.crypto_stream_aes256ctr out outOff outlen n k kOff) (Saber.Avx.AesNi.crypto_stream_aes256ctr out outOff outlen n k kOff) := by
  unfold Saber.Leak.Avx.AesNi.crypto_stream_aes256ctr Saber.Avx.AesNi.crypto_stream_aes256ctr
  repeat estep
macro_rules | `(tactic| estep) => `(tactic| with_reducible exact Saber.Leak.Avx.AesNi.E_crypto_stream_aes256ctr _ _ _ _ _ _)

theorem E_saber_aes256ctr_prf (output : List Byte) (outOff : Nat) (outlen : Nat) (input : List Byte) (inOff : Nat) : E (Saber.Leak.Avx.AesNi.saber_aes256ctr_prf output outOff outlen input inOff) (Saber.Avx.AesNi.saber_aes256ctr_prf output outOff outlen input inOff) := by
  unfold Saber.Leak.Avx.AesNi.saber_aes256ctr_prf Saber.Avx.AesNi.saber_aes256ctr_prf
  repeat estep
macro_rules | `(tactic| estep) => `(tactic| with_reducible exact Saber.Leak.Avx.AesNi.E_saber_aes256ctr_prf _ _ _ _ _)

end AesNi

end Saber.Leak.Avx
