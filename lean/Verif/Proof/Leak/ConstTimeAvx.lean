import Verif.Model.Leak.Avx
import Verif.Proof.Leak.ConstTime
/-! # AVX2: the events do not depend on the data -/
set_option linter.unusedSectionVars false

namespace Saber.Leak.Avx
open Saber.Avx

theorem CT_evalEx (s s' : St) (e : Ex) : CT (Saber.Leak.Avx.evalEx s e) (Saber.Leak.Avx.evalEx s' e) := by
  induction e with
  | v x => exact CT.lift _ _
  | ix p i => exact CT.bind (CT.rd _ _ _) fun _ _ => CT.rd _ _ _
  | set1 n => exact CT.pure _ _
  | op2 o a b iha ihb => exact CT.bind iha fun _ _ => CT.bind ihb fun _ _ => CT.pure _ _
  | slli a n ih => exact CT.bind ih fun _ _ => CT.pure _ _
  | srli a n ih => exact CT.bind ih fun _ _ => CT.pure _ _
theorem CT_execStmt (t : Stmt) (s s' : St) : CT (Saber.Leak.Avx.execStmt t s) (Saber.Leak.Avx.execStmt t s') := by
  unfold Saber.Leak.Avx.execStmt
  refine CT.bind (CT_evalEx s s' t.e) fun y y' => ?_
  cases t.l with
  | v x => exact CT.bind (CT.lift _ _) fun _ _ => CT.pure _ _
  | ix p i => exact CT.bind (CT.rd _ _ _) fun _ _ => CT.bind (CT.wr _ _ _ _ _) fun _ _ => CT.bind (CT.wr _ _ _ _ _) fun _ _ => CT.pure _ _
  | _ => exact CT.lift _ _
theorem CT_exec (l : List Stmt) : ∀ s s' : St, CT (Saber.Leak.Avx.exec l s) (Saber.Leak.Avx.exec l s') := by
  induction l with
  | nil => exact fun _ _ => CT.pure _ _
  | cons t l ih => exact fun s s' => CT.bind (CT_execStmt t s s') ih
theorem CT_run (n : Nat) (arrs arrs' : List (List Vec)) (l : List Stmt) : CT (Saber.Leak.Avx.run n arrs l) (Saber.Leak.Avx.run n arrs' l) :=
  CT.bind (CT_exec l _ _) fun _ _ => CT.pure _ _
macro_rules | `(tactic| ctstep) => `(tactic| with_reducible exact Saber.Leak.Avx.CT_run _ _ _ _)
theorem CT_onSlice {α : Type} (m m' : List α) (off : Nat) {f g : List α → LM (List α)} (h : ∀ x x', CT (f x) (g x')) :
    CT (Saber.Leak.Avx.onSlice m off f) (Saber.Leak.Avx.onSlice m' off g) :=
  CT.bind ⟨fun a b ha hb => ⟨congrArg (List.cons _) ((h (m.drop off) (m'.drop off)).same a b ha hb).1, trivial⟩⟩ fun _ _ => CT.pure _ _
macro_rules | `(tactic| ctstep) => `(tactic| with_reducible refine Saber.Leak.Avx.CT_onSlice _ _ _ ?_)
theorem CT_loadu (row row' : List (BitVec 16)) (off : Nat) : CT (Saber.Leak.Avx.loadu row off) (Saber.Leak.Avx.loadu row' off) :=
  ⟨fun _ _ _ _ => ⟨rfl, trivial⟩⟩
macro_rules | `(tactic| ctstep) => `(tactic| with_reducible exact Saber.Leak.Avx.CT_loadu _ _ _)
/-- The events of two linked libraries do not depend on the data. -/
class LibCT (l l' : LLib) : Prop where
  /-- see above -/
  prf : ∀ out out' o n inp inp' i m, CT (l.prf out o n inp i m) (l'.prf out' o n inp' i m)
  /-- see above -/
  hash_h : ∀ out out' o inp inp' i m, CT (l.hash_h out o inp i m) (l'.hash_h out' o inp' i m)
  /-- see above -/
  hash_g : ∀ out out' o inp inp' i m, CT (l.hash_g out o inp i m) (l'.hash_g out' o inp' i m)
macro_rules | `(tactic| ctstep) => `(tactic| with_reducible exact Saber.Leak.Avx.LibCT.prf _ _ _ _ _ _ _ _)
macro_rules | `(tactic| ctstep) => `(tactic| with_reducible exact Saber.Leak.Avx.LibCT.hash_h _ _ _ _ _ _ _)
macro_rules | `(tactic| ctstep) => `(tactic| with_reducible exact Saber.Leak.Avx.LibCT.hash_g _ _ _ _ _ _ _)
theorem CT_load (p p' : List Byte) (off : Nat) : CT (Saber.Leak.Avx.AesNi.load p off) (Saber.Leak.Avx.AesNi.load p' off) :=
  ⟨fun _ _ _ _ => ⟨rfl, trivial⟩⟩
macro_rules | `(tactic| ctstep) => `(tactic| with_reducible exact Saber.Leak.Avx.CT_load _ _ _)
theorem CT_store (p p' : List Byte) (off : Nat) (a a' : List Byte) : CT (Saber.Leak.Avx.AesNi.store p off a) (Saber.Leak.Avx.AesNi.store p' off a') :=
  ⟨fun _ _ _ _ => ⟨rfl, trivial⟩⟩
macro_rules | `(tactic| ctstep) => `(tactic| with_reducible exact Saber.Leak.Avx.CT_store _ _ _ _ _)
theorem R2_self {α : Type} (x : LM α) : R2 x x fun a b => a = b := ⟨fun _ _ ha hb => ⟨rfl, Except.ok.inj (ha.symm.trans hb)⟩⟩

namespace Matrix
open Saber.Avx.Matrix

end Matrix

theorem CT_transpose_n1 (M : List Vec) (M' : List Vec) :
    CT (Saber.Leak.Avx.transpose_n1 M) (Saber.Leak.Avx.transpose_n1 M') := by
  unfold Saber.Leak.Avx.transpose_n1
  repeat ctstep
macro_rules | `(tactic| ctstep) => `(tactic| with_reducible exact Saber.Leak.Avx.CT_transpose_n1 _ _)

namespace Scm
open Saber.Avx.Scm

end Scm

theorem CT_schoolbook_avx_new3_acc (a : List Vec) (a' : List Vec) (b : List Vec) (b' : List Vec) (c_avx : List Vec) (c_avx' : List Vec) :
    CT (Saber.Leak.Avx.schoolbook_avx_new3_acc a b c_avx) (Saber.Leak.Avx.schoolbook_avx_new3_acc a' b' c_avx') := by
  unfold Saber.Leak.Avx.schoolbook_avx_new3_acc
  repeat ctstep
macro_rules | `(tactic| ctstep) => `(tactic| with_reducible exact Saber.Leak.Avx.CT_schoolbook_avx_new3_acc _ _ _ _ _ _)

theorem CT_schoolbook_avx_new2 (a : List Vec) (a' : List Vec) (b : List Vec) (b' : List Vec) (c_avx : List Vec) (c_avx' : List Vec) :
    CT (Saber.Leak.Avx.schoolbook_avx_new2 a b c_avx) (Saber.Leak.Avx.schoolbook_avx_new2 a' b' c_avx') := by
  unfold Saber.Leak.Avx.schoolbook_avx_new2
  repeat ctstep
macro_rules | `(tactic| ctstep) => `(tactic| with_reducible exact Saber.Leak.Avx.CT_schoolbook_avx_new2 _ _ _ _ _ _)

namespace Eval
open Saber.Avx.Eval

end Eval

namespace KEval
open Saber.Avx.KEval

end KEval

theorem CT_transposes (n : Nat) (m : List Vec) (m' : List Vec) :
    CT (Saber.Leak.Avx.transposes n m) (Saber.Leak.Avx.transposes n m') := by
  unfold Saber.Leak.Avx.transposes
  repeat ctstep
macro_rules | `(tactic| ctstep) => `(tactic| with_reducible exact Saber.Leak.Avx.CT_transposes _ _ _)

theorem CT_batch_64coefficient_multiplications_new (a : List Vec) (a' : List Vec) (b_bucket : List Vec) (b_bucket' : List Vec) (c_bucket : List Vec) (c_bucket' : List Vec) (f : Nat) :
    CT (Saber.Leak.Avx.batch_64coefficient_multiplications_new a b_bucket c_bucket f) (Saber.Leak.Avx.batch_64coefficient_multiplications_new a' b_bucket' c_bucket' f) := by
  unfold Saber.Leak.Avx.batch_64coefficient_multiplications_new
  repeat ctstep
macro_rules | `(tactic| ctstep) => `(tactic| with_reducible exact Saber.Leak.Avx.CT_batch_64coefficient_multiplications_new _ _ _ _ _ _ _)

theorem CT_KARA_eval (b : List Vec) (b' : List Vec) (b_bucket : List Vec) (b_bucket' : List Vec) :
    CT (Saber.Leak.Avx.KARA_eval b b_bucket) (Saber.Leak.Avx.KARA_eval b' b_bucket') := by
  unfold Saber.Leak.Avx.KARA_eval
  repeat ctstep
macro_rules | `(tactic| ctstep) => `(tactic| with_reducible exact Saber.Leak.Avx.CT_KARA_eval _ _ _ _)

namespace KInterpol
open Saber.Avx.KInterpol

end KInterpol

theorem CT_KARA_interpol (c_bucket : List Vec) (c_bucket' : List Vec) (w : List (List Vec)) (w' : List (List Vec)) :
    CT (Saber.Leak.Avx.KARA_interpol c_bucket w) (Saber.Leak.Avx.KARA_interpol c_bucket' w') := by
  unfold Saber.Leak.Avx.KARA_interpol
  repeat ctstep
macro_rules | `(tactic| ctstep) => `(tactic| with_reducible exact Saber.Leak.Avx.CT_KARA_interpol _ _ _ _)

namespace TEval
open Saber.Avx.TEval

end TEval

theorem CT_toom_cook_4way_avx_n1 (a_avx : List Vec) (a_avx' : List Vec) (b_bucket : List Vec) (b_bucket' : List Vec) (c_bucket : List Vec) (c_bucket' : List Vec) (f : Nat) :
    CT (Saber.Leak.Avx.toom_cook_4way_avx_n1 a_avx b_bucket c_bucket f) (Saber.Leak.Avx.toom_cook_4way_avx_n1 a_avx' b_bucket' c_bucket' f) := by
  unfold Saber.Leak.Avx.toom_cook_4way_avx_n1
  repeat ctstep
macro_rules | `(tactic| ctstep) => `(tactic| with_reducible exact Saber.Leak.Avx.CT_toom_cook_4way_avx_n1 _ _ _ _ _ _ _)

namespace TEvalB
open Saber.Avx.TEvalB

end TEvalB

theorem CT_TC_eval (b_avx : List Vec) (b_avx' : List Vec) (b_bucket : List Vec) (b_bucket' : List Vec) :
    CT (Saber.Leak.Avx.TC_eval b_avx b_bucket) (Saber.Leak.Avx.TC_eval b_avx' b_bucket') := by
  unfold Saber.Leak.Avx.TC_eval
  repeat ctstep
macro_rules | `(tactic| ctstep) => `(tactic| with_reducible exact Saber.Leak.Avx.CT_TC_eval _ _ _ _)

namespace TInterpol
open Saber.Avx.TInterpol

end TInterpol

theorem CT_TC_interpol (c_bucket : List Vec) (c_bucket' : List Vec) (res_avx : List Vec) (res_avx' : List Vec) :
    CT (Saber.Leak.Avx.TC_interpol c_bucket res_avx) (Saber.Leak.Avx.TC_interpol c_bucket' res_avx') := by
  unfold Saber.Leak.Avx.TC_interpol
  repeat ctstep
macro_rules | `(tactic| ctstep) => `(tactic| with_reducible exact Saber.Leak.Avx.CT_TC_interpol _ _ _ _)

theorem CT_SABER_pack (P : PSet) (bytes : List Byte) (bytes' : List Byte) (data : List (BitVec 16)) (data' : List (BitVec 16)) :
    CT (Saber.Leak.Avx.SABER_pack P bytes data) (Saber.Leak.Avx.SABER_pack P bytes' data') := by
  unfold Saber.Leak.Avx.SABER_pack
  cases P <;> repeat ctstep
macro_rules | `(tactic| ctstep) => `(tactic| with_reducible exact Saber.Leak.Avx.CT_SABER_pack _ _ _ _ _)

theorem CT_SABER_un_pack (P : PSet) (bytes : List Byte) (bytes' : List Byte) (data : List (BitVec 16)) (data' : List (BitVec 16)) :
    CT (Saber.Leak.Avx.SABER_un_pack P bytes data) (Saber.Leak.Avx.SABER_un_pack P bytes' data') := by
  unfold Saber.Leak.Avx.SABER_un_pack
  cases P <;> repeat ctstep
macro_rules | `(tactic| ctstep) => `(tactic| with_reducible exact Saber.Leak.Avx.CT_SABER_un_pack _ _ _ _ _)

theorem CT_POLVECp2BS (P : PSet) (bytes : List Byte) (bytes' : List Byte) (data : List (List (BitVec 16))) (data' : List (List (BitVec 16))) :
    CT (Saber.Leak.Avx.POLVECp2BS P bytes data) (Saber.Leak.Avx.POLVECp2BS P bytes' data') := by
  unfold Saber.Leak.Avx.POLVECp2BS
  repeat ctstep
macro_rules | `(tactic| ctstep) => `(tactic| with_reducible exact Saber.Leak.Avx.CT_POLVECp2BS _ _ _ _ _)

theorem CT_POLVECq2BS (P : PSet) (bytes : List Byte) (bytes' : List Byte) (data : List (List (BitVec 16))) (data' : List (List (BitVec 16))) :
    CT (Saber.Leak.Avx.POLVECq2BS P bytes data) (Saber.Leak.Avx.POLVECq2BS P bytes' data') := by
  unfold Saber.Leak.Avx.POLVECq2BS
  repeat ctstep
macro_rules | `(tactic| ctstep) => `(tactic| with_reducible exact Saber.Leak.Avx.CT_POLVECq2BS _ _ _ _ _)

theorem CT_BS2POLVECp (P : PSet) (bytes : List Byte) (bytes' : List Byte) (off : Nat) (data : List (List (BitVec 16))) (data' : List (List (BitVec 16))) :
    CT (Saber.Leak.Avx.BS2POLVECp P bytes off data) (Saber.Leak.Avx.BS2POLVECp P bytes' off data') := by
  unfold Saber.Leak.Avx.BS2POLVECp
  repeat ctstep
macro_rules | `(tactic| ctstep) => `(tactic| with_reducible exact Saber.Leak.Avx.CT_BS2POLVECp _ _ _ _ _ _)

theorem CT_BS2POLVECq (P : PSet) (bytes : List Byte) (bytes' : List Byte) (off : Nat) (data : List (List (BitVec 16))) (data' : List (List (BitVec 16))) :
    CT (Saber.Leak.Avx.BS2POLVECq P bytes off data) (Saber.Leak.Avx.BS2POLVECq P bytes' off data') := by
  unfold Saber.Leak.Avx.BS2POLVECq
  repeat ctstep
macro_rules | `(tactic| ctstep) => `(tactic| with_reducible exact Saber.Leak.Avx.CT_BS2POLVECq _ _ _ _ _ _)

theorem CT_POLVEC2BS (P : PSet) (bytes : List Byte) (bytes' : List Byte) (data : List (List (BitVec 16))) (data' : List (List (BitVec 16))) (modulus : Nat) :
    CT (Saber.Leak.Avx.POLVEC2BS P bytes data modulus) (Saber.Leak.Avx.POLVEC2BS P bytes' data' modulus) := by
  unfold Saber.Leak.Avx.POLVEC2BS
  repeat ctstep
macro_rules | `(tactic| ctstep) => `(tactic| with_reducible exact Saber.Leak.Avx.CT_POLVEC2BS _ _ _ _ _ _)

theorem CT_BS2POLVEC (P : PSet) (bytes : List Byte) (bytes' : List Byte) (off : Nat) (data : List (List (BitVec 16))) (data' : List (List (BitVec 16))) (modulus : Nat) :
    CT (Saber.Leak.Avx.BS2POLVEC P bytes off data modulus) (Saber.Leak.Avx.BS2POLVEC P bytes' off data' modulus) := by
  unfold Saber.Leak.Avx.BS2POLVEC
  repeat ctstep
macro_rules | `(tactic| ctstep) => `(tactic| with_reducible exact Saber.Leak.Avx.CT_BS2POLVEC _ _ _ _ _ _ _)

theorem CT_cbd (P : PSet) (r : List (BitVec 16)) (r' : List (BitVec 16)) (buf : List Byte) (buf' : List Byte) (off : Nat) :
    CT (Saber.Leak.Avx.cbd P r buf off) (Saber.Leak.Avx.cbd P r' buf' off) := by
  unfold Saber.Leak.Avx.cbd
  cases P <;> repeat ctstep
macro_rules | `(tactic| ctstep) => `(tactic| with_reducible exact Saber.Leak.Avx.CT_cbd _ _ _ _ _ _)

theorem CT_maskstore (row : List (BitVec 16)) (row' : List (BitVec 16)) (off : Nat) (mask : Nat → BitVec 32) (v : Vec) (v' : Vec) :
    CT (Saber.Leak.Avx.maskstore row off mask v) (Saber.Leak.Avx.maskstore row' off mask v') := by
  unfold Saber.Leak.Avx.maskstore
  repeat ctstep
macro_rules | `(tactic| ctstep) => `(tactic| with_reducible exact Saber.Leak.Avx.CT_maskstore _ _ _ _ _ _)

theorem CT_loadRow (dst : List Vec) (dst' : List Vec) (row : List (BitVec 16)) (row' : List (BitVec 16)) :
    CT (Saber.Leak.Avx.loadRow dst row) (Saber.Leak.Avx.loadRow dst' row') := by
  unfold Saber.Leak.Avx.loadRow
  repeat ctstep
macro_rules | `(tactic| ctstep) => `(tactic| with_reducible exact Saber.Leak.Avx.CT_loadRow _ _ _ _)

theorem CT_loadVec (P : PSet) (dst : List (List Vec)) (dst' : List (List Vec)) (src : List (List (BitVec 16))) (src' : List (List (BitVec 16))) :
    CT (Saber.Leak.Avx.loadVec P dst src) (Saber.Leak.Avx.loadVec P dst' src') := by
  unfold Saber.Leak.Avx.loadVec
  repeat ctstep
macro_rules | `(tactic| ctstep) => `(tactic| with_reducible exact Saber.Leak.Avx.CT_loadVec _ _ _ _ _)

theorem CT_loadMat (P : PSet) (dst : List (List (List Vec))) (dst' : List (List (List Vec))) (src : List (List (List (BitVec 16)))) (src' : List (List (List (BitVec 16)))) :
    CT (Saber.Leak.Avx.loadMat P dst src) (Saber.Leak.Avx.loadMat P dst' src') := by
  unfold Saber.Leak.Avx.loadMat
  repeat ctstep
macro_rules | `(tactic| ctstep) => `(tactic| with_reducible exact Saber.Leak.Avx.CT_loadMat _ _ _ _ _)

theorem CT_storeRow (row : List (BitVec 16)) (row' : List (BitVec 16)) (v : List Vec) (v' : List Vec) :
    CT (Saber.Leak.Avx.storeRow row v) (Saber.Leak.Avx.storeRow row' v') := by
  unfold Saber.Leak.Avx.storeRow
  repeat ctstep
macro_rules | `(tactic| ctstep) => `(tactic| with_reducible exact Saber.Leak.Avx.CT_storeRow _ _ _ _)

theorem CT_storeVec (P : PSet) (dst : List (List (BitVec 16))) (dst' : List (List (BitVec 16))) (v : List (List Vec)) (v' : List (List Vec)) :
    CT (Saber.Leak.Avx.storeVec P dst v) (Saber.Leak.Avx.storeVec P dst' v') := by
  unfold Saber.Leak.Avx.storeVec
  repeat ctstep
macro_rules | `(tactic| ctstep) => `(tactic| with_reducible exact Saber.Leak.Avx.CT_storeVec _ _ _ _ _)

theorem CT_BS2POLq (bytes : List Byte) (bytes' : List Byte) (off : Nat) (data : List (BitVec 16)) (data' : List (BitVec 16)) :
    CT (Saber.Leak.Avx.BS2POLq bytes off data) (Saber.Leak.Avx.BS2POLq bytes' off data') := by
  unfold Saber.Leak.Avx.BS2POLq
  repeat ctstep
macro_rules | `(tactic| ctstep) => `(tactic| with_reducible exact Saber.Leak.Avx.CT_BS2POLq _ _ _ _ _)

theorem CT_modRow (dst : List (BitVec 16)) (dst' : List (BitVec 16)) (temp_ar : List (BitVec 16)) (temp_ar' : List (BitVec 16)) :
    CT (Saber.Leak.Avx.modRow dst temp_ar) (Saber.Leak.Avx.modRow dst' temp_ar') := by
  unfold Saber.Leak.Avx.modRow
  repeat ctstep
macro_rules | `(tactic| ctstep) => `(tactic| with_reducible exact Saber.Leak.Avx.CT_modRow _ _ _ _)

theorem CT_GenMatrix (lib : LLib) (lib' : LLib) [LibCT lib lib'] (P : PSet) (a : List (List (List (BitVec 16)))) (a' : List (List (List (BitVec 16)))) (seed : List Byte) (seed' : List Byte) :
    CT (Saber.Leak.Avx.GenMatrix lib P a seed) (Saber.Leak.Avx.GenMatrix lib' P a' seed') := by
  unfold Saber.Leak.Avx.GenMatrix
  repeat ctstep
macro_rules | `(tactic| ctstep) => `(tactic| with_reducible exact Saber.Leak.Avx.CT_GenMatrix _ _ _ _ _ _ _)

theorem CT_GenSecret (lib : LLib) (lib' : LLib) [LibCT lib lib'] (P : PSet) (r : List (List (BitVec 16))) (r' : List (List (BitVec 16))) (seed : List Byte) (seed' : List Byte) (seedOff : Nat) :
    CT (Saber.Leak.Avx.GenSecret lib P r seed seedOff) (Saber.Leak.Avx.GenSecret lib' P r' seed' seedOff) := by
  unfold Saber.Leak.Avx.GenSecret
  repeat ctstep
macro_rules | `(tactic| ctstep) => `(tactic| with_reducible exact Saber.Leak.Avx.CT_GenSecret _ _ _ _ _ _ _ _)

theorem CT_evalAll (P : PSet) (sk_avx : List (List Vec)) (sk_avx' : List (List Vec)) (b_bucket : List (List Vec)) (b_bucket' : List (List Vec)) :
    CT (Saber.Leak.Avx.evalAll P sk_avx b_bucket) (Saber.Leak.Avx.evalAll P sk_avx' b_bucket') := by
  unfold Saber.Leak.Avx.evalAll
  repeat ctstep
macro_rules | `(tactic| ctstep) => `(tactic| with_reducible exact Saber.Leak.Avx.CT_evalAll _ _ _ _ _)

theorem CT_matrix_vector_mul (P : PSet) (a : List (List (List Vec))) (a' : List (List (List Vec))) (b_bucket : List (List Vec)) (b_bucket' : List (List Vec)) (res_avx : List (List Vec)) (res_avx' : List (List Vec)) (isTranspose : Int) :
    CT (Saber.Leak.Avx.matrix_vector_mul P a b_bucket res_avx isTranspose) (Saber.Leak.Avx.matrix_vector_mul P a' b_bucket' res_avx' isTranspose) := by
  unfold Saber.Leak.Avx.matrix_vector_mul
  repeat ctstep
macro_rules | `(tactic| ctstep) => `(tactic| with_reducible exact Saber.Leak.Avx.CT_matrix_vector_mul _ _ _ _ _ _ _ _)

theorem CT_vector_vector_mul (P : PSet) (a_avx : List (List Vec)) (a_avx' : List (List Vec)) (b_bucket : List (List Vec)) (b_bucket' : List (List Vec)) (res_avx : List Vec) (res_avx' : List Vec) :
    CT (Saber.Leak.Avx.vector_vector_mul P a_avx b_bucket res_avx) (Saber.Leak.Avx.vector_vector_mul P a_avx' b_bucket' res_avx') := by
  unfold Saber.Leak.Avx.vector_vector_mul
  repeat ctstep
macro_rules | `(tactic| ctstep) => `(tactic| with_reducible exact Saber.Leak.Avx.CT_vector_vector_mul _ _ _ _ _ _ _)

theorem CT_truncVec (P : PSet) (res_avx : List (List Vec)) (res_avx' : List (List Vec)) :
    CT (Saber.Leak.Avx.truncVec P res_avx) (Saber.Leak.Avx.truncVec P res_avx') := by
  unfold Saber.Leak.Avx.truncVec
  repeat ctstep
macro_rules | `(tactic| ctstep) => `(tactic| with_reducible exact Saber.Leak.Avx.CT_truncVec _ _ _)

theorem CT_indcpa_kem_keypair {σ τ : Type} (lib : LLib) (lib' : LLib) [LibCT lib lib'] (P : PSet) (rb : RandomBytes σ) (rb' : RandomBytes τ) (pk : List Byte) (pk' : List Byte) (sk : List Byte) (sk' : List Byte) (st : σ) (st' : τ) :
    CT (Saber.Leak.Avx.indcpa_kem_keypair lib P rb pk sk st) (Saber.Leak.Avx.indcpa_kem_keypair lib' P rb' pk' sk' st') := by
  unfold Saber.Leak.Avx.indcpa_kem_keypair
  repeat ctstep
macro_rules | `(tactic| ctstep) => `(tactic| with_reducible exact Saber.Leak.Avx.CT_indcpa_kem_keypair _ _ _ _ _ _ _ _ _ _ _)

theorem CT_addH1 (v : List Vec) (v' : List Vec) :
    CT (Saber.Leak.Avx.addH1 v) (Saber.Leak.Avx.addH1 v') := by
  unfold Saber.Leak.Avx.addH1
  repeat ctstep
macro_rules | `(tactic| ctstep) => `(tactic| with_reducible exact Saber.Leak.Avx.CT_addH1 _ _)

theorem CT_encodeMessage (message_avx : List Vec) (message_avx' : List Vec) (message : List (BitVec 16)) (message' : List (BitVec 16)) :
    CT (Saber.Leak.Avx.encodeMessage message_avx message) (Saber.Leak.Avx.encodeMessage message_avx' message') := by
  unfold Saber.Leak.Avx.encodeMessage
  repeat ctstep
macro_rules | `(tactic| ctstep) => `(tactic| with_reducible exact Saber.Leak.Avx.CT_encodeMessage _ _ _ _)

theorem CT_truncEnc (P : PSet) (vprime_avx : List Vec) (vprime_avx' : List Vec) (message_avx : List Vec) (message_avx' : List Vec) :
    CT (Saber.Leak.Avx.truncEnc P vprime_avx message_avx) (Saber.Leak.Avx.truncEnc P vprime_avx' message_avx') := by
  unfold Saber.Leak.Avx.truncEnc
  repeat ctstep
macro_rules | `(tactic| ctstep) => `(tactic| with_reducible exact Saber.Leak.Avx.CT_truncEnc _ _ _ _ _)

theorem CT_indcpa_kem_enc (lib : LLib) (lib' : LLib) [LibCT lib lib'] (P : PSet) (message_received : List Byte) (message_received' : List Byte) (mOff : Nat) (noiseseed : List Byte) (noiseseed' : List Byte) (noiseOff : Nat) (pk : List Byte) (pk' : List Byte) (pkOff : Nat) (ciphertext : List Byte) (ciphertext' : List Byte) :
    CT (Saber.Leak.Avx.indcpa_kem_enc lib P message_received mOff noiseseed noiseOff pk pkOff ciphertext) (Saber.Leak.Avx.indcpa_kem_enc lib' P message_received' mOff noiseseed' noiseOff pk' pkOff ciphertext') := by
  unfold Saber.Leak.Avx.indcpa_kem_enc
  repeat ctstep
macro_rules | `(tactic| ctstep) => `(tactic| with_reducible exact Saber.Leak.Avx.CT_indcpa_kem_enc _ _ _ _ _ _ _ _ _ _ _ _ _ _)

theorem CT_decRound (P : PSet) (message_dec_unpacked : List (BitVec 16)) (message_dec_unpacked' : List (BitVec 16)) (op : List (BitVec 16)) (op' : List (BitVec 16)) :
    CT (Saber.Leak.Avx.decRound P message_dec_unpacked op) (Saber.Leak.Avx.decRound P message_dec_unpacked' op') := by
  unfold Saber.Leak.Avx.decRound
  repeat ctstep
macro_rules | `(tactic| ctstep) => `(tactic| with_reducible exact Saber.Leak.Avx.CT_decRound _ _ _ _ _)

theorem CT_POL2MSG (message_dec_unpacked : List (BitVec 16)) (message_dec_unpacked' : List (BitVec 16)) (message_dec : List Byte) (message_dec' : List Byte) :
    CT (Saber.Leak.Avx.POL2MSG message_dec_unpacked message_dec) (Saber.Leak.Avx.POL2MSG message_dec_unpacked' message_dec') := by
  unfold Saber.Leak.Avx.POL2MSG
  repeat ctstep
macro_rules | `(tactic| ctstep) => `(tactic| with_reducible exact Saber.Leak.Avx.CT_POL2MSG _ _ _ _)

theorem CT_clear (v : List Vec) (v' : List Vec) :
    CT (Saber.Leak.Avx.clear v) (Saber.Leak.Avx.clear v') := by
  unfold Saber.Leak.Avx.clear
  repeat ctstep
macro_rules | `(tactic| ctstep) => `(tactic| with_reducible exact Saber.Leak.Avx.CT_clear _ _)

theorem CT_indcpa_kem_dec (P : PSet) (sk : List Byte) (sk' : List Byte) (ciphertext : List Byte) (ciphertext' : List Byte) (message_dec : List Byte) (message_dec' : List Byte) :
    CT (Saber.Leak.Avx.indcpa_kem_dec P sk ciphertext message_dec) (Saber.Leak.Avx.indcpa_kem_dec P sk' ciphertext' message_dec') := by
  unfold Saber.Leak.Avx.indcpa_kem_dec
  repeat ctstep
macro_rules | `(tactic| ctstep) => `(tactic| with_reducible exact Saber.Leak.Avx.CT_indcpa_kem_dec _ _ _ _ _ _ _)

theorem CT_crypto_kem_keypair {σ τ : Type} (lib : LLib) (lib' : LLib) [LibCT lib lib'] (P : PSet) (rb : RandomBytes σ) (rb' : RandomBytes τ) (pk : List Byte) (pk' : List Byte) (sk : List Byte) (sk' : List Byte) (st : σ) (st' : τ) :
    CT (Saber.Leak.Avx.crypto_kem_keypair lib P rb pk sk st) (Saber.Leak.Avx.crypto_kem_keypair lib' P rb' pk' sk' st') := by
  unfold Saber.Leak.Avx.crypto_kem_keypair
  repeat ctstep
macro_rules | `(tactic| ctstep) => `(tactic| with_reducible exact Saber.Leak.Avx.CT_crypto_kem_keypair _ _ _ _ _ _ _ _ _ _ _)

theorem CT_crypto_kem_enc {σ τ : Type} (lib : LLib) (lib' : LLib) [LibCT lib lib'] (P : PSet) (rb : RandomBytes σ) (rb' : RandomBytes τ) (c : List Byte) (c' : List Byte) (k : List Byte) (k' : List Byte) (pk : List Byte) (pk' : List Byte) (st : σ) (st' : τ) :
    CT (Saber.Leak.Avx.crypto_kem_enc lib P rb c k pk st) (Saber.Leak.Avx.crypto_kem_enc lib' P rb' c' k' pk' st') := by
  unfold Saber.Leak.Avx.crypto_kem_enc
  repeat ctstep
macro_rules | `(tactic| ctstep) => `(tactic| with_reducible exact Saber.Leak.Avx.CT_crypto_kem_enc _ _ _ _ _ _ _ _ _ _ _ _ _)

theorem CT_crypto_kem_dec (lib : LLib) (lib' : LLib) [LibCT lib lib'] (P : PSet) (k : List Byte) (k' : List Byte) (c : List Byte) (c' : List Byte) (sk : List Byte) (sk' : List Byte) :
    CT (Saber.Leak.Avx.crypto_kem_dec lib P k c sk) (Saber.Leak.Avx.crypto_kem_dec lib' P k' c' sk') := by
  unfold Saber.Leak.Avx.crypto_kem_dec
  repeat ctstep
macro_rules | `(tactic| ctstep) => `(tactic| with_reducible exact Saber.Leak.Avx.CT_crypto_kem_dec _ _ _ _ _ _ _ _ _)

namespace AesNi
open Saber.Avx.AesNi

theorem R2_BLOCK1 (imm : Byte) (s s' : Saber.Avx.AesNi.KS) (h : s.idx = s'.idx) :
    R2 (Saber.Leak.Avx.AesNi.BLOCK1 imm s) (Saber.Leak.Avx.AesNi.BLOCK1 imm s') fun a b => a.idx = b.idx := by
  unfold Saber.Leak.Avx.AesNi.BLOCK1
  rw [h]
  exact CT.bind (CT.wr _ _ _ _ _) fun _ _ => R2.pure rfl

theorem R2_BLOCK2 (imm : Byte) (s s' : Saber.Avx.AesNi.KS) (h : s.idx = s'.idx) :
    R2 (Saber.Leak.Avx.AesNi.BLOCK2 imm s) (Saber.Leak.Avx.AesNi.BLOCK2 imm s') fun a b => a.idx = b.idx := by
  unfold Saber.Leak.Avx.AesNi.BLOCK2
  rw [h]
  exact CT.bind (CT.wr _ _ _ _ _) fun _ _ => R2.pure rfl

theorem CT_aesni_key256_expand (key key' : List Byte) (off : Nat) (rkeys rkeys' : List M128) :
    CT (Saber.Leak.Avx.AesNi.aesni_key256_expand key off rkeys) (Saber.Leak.Avx.AesNi.aesni_key256_expand key' off rkeys') := by
  unfold Saber.Leak.Avx.AesNi.aesni_key256_expand
  refine CT.bind (CT_load _ _ _) fun k0 k0' => CT.bind (CT_load _ _ _) fun k1 k1' => CT.bind (CT.wr _ _ _ _ _) fun r r' => ?_
  refine R2.bind (R2_BLOCK1 _ _ _ rfl) fun _ _ h => ?_
  iterate 6
    refine R2.bind (R2_BLOCK2 _ _ _ h) fun _ _ h => ?_
    refine R2.bind (R2_BLOCK1 _ _ _ h) fun _ _ h => ?_
  rw [h]
  exact CT.wr _ _ _ _ _
macro_rules | `(tactic| ctstep) => `(tactic| with_reducible exact Saber.Leak.Avx.AesNi.CT_aesni_key256_expand _ _ _ _ _)


theorem R2_aesni_encrypt8 (out out' n : List Byte) (rkeys rkeys' : List M128) :
    R2 (Saber.Leak.Avx.AesNi.aesni_encrypt8 out n rkeys) (Saber.Leak.Avx.AesNi.aesni_encrypt8 out' n rkeys') fun a b => a.2 = b.2 := by
  unfold Saber.Leak.Avx.AesNi.aesni_encrypt8
  refine R2.bind (R2_self _) fun a b h => ?_
  obtain ⟨nv, n⟩ := a
  cases h
  refine CT.bind (CT.rd _ _ _) fun _ _ => ?_
  refine CT.bind ?_ fun _ _ => ?_
  · repeat ctstep
  refine CT.bind (CT.rd _ _ _) fun _ _ => ?_
  refine CT.bind ?_ fun _ _ => ?_
  · repeat ctstep
  exact R2.pure rfl


theorem CT_crypto_stream_aes256ctr (out out' : List Byte) (outOff outlen : Nat) (n k k' : List Byte) (kOff : Nat) :
    CT (Saber.Leak.Avx.AesNi.crypto_stream_aes256ctr out outOff outlen n k kOff) (Saber.Leak.Avx.AesNi.crypto_stream_aes256ctr out' outOff outlen n k' kOff) := by
  unfold Saber.Leak.Avx.AesNi.crypto_stream_aes256ctr
  refine CT.bind (CT_aesni_key256_expand _ _ _ _ _) fun rk rk' => ?_
  refine R2.bind (R2_self _) fun n2 n2' h => ?_
  cases h
  refine R2.bind (Q := fun a b => a.2 = b.2) (R2.loop (I := fun _ (a b : List Byte × List Byte) => a.2 = b.2) ?_ _ _ _ ?_) fun a b _ => CT.pure _ _
  case refine_2 => rfl
  intro t a b h
  obtain ⟨o, n⟩ := a
  obtain ⟨o', n'⟩ := b
  cases h
  refine R2.bind (R2_aesni_encrypt8 _ _ _ _ _) fun a b h => ?_
  obtain ⟨o2, n⟩ := a
  obtain ⟨o2', n'⟩ := b
  cases h
  refine CT.bind (CT.branch _) fun _ _ => ?_
  refine CT.bind ?_ fun _ _ => ?_
  · repeat ctstep
  exact R2.pure rfl

theorem CT_saber_aes256ctr_prf (output output' : List Byte) (outOff outlen : Nat) (input input' : List Byte) (inOff : Nat) :
    CT (Saber.Leak.Avx.AesNi.saber_aes256ctr_prf output outOff outlen input inOff) (Saber.Leak.Avx.AesNi.saber_aes256ctr_prf output' outOff outlen input' inOff) :=
  CT_crypto_stream_aes256ctr _ _ _ _ _ _ _ _

end AesNi

end Saber.Leak.Avx
