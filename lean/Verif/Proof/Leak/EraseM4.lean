import Verif.Model.Leak.M4
import Verif.Proof.Leak.Erase
/-! # Cortex-M4: leaving out the events gives the model -/
set_option linter.unusedSectionVars false

namespace Saber.Leak.M4
open Saber.M4

/-- Leaving out the events of the linked multiplication gives the linked multiplication of the model. -/
class ToomE (t : LToom) (t' : Toom) : Prop where
  /-- see above -/
  erase : ∀ a b r, E (t a b r) (t' a b r)
/-- see `ToomE` -/
class KaraE (t : LKara) (t' : Kara) : Prop where
  /-- see above -/
  erase : ∀ k, E (t k) (t' k)
theorem E_toom (t : LToom) (t' : Toom) [ToomE t t'] (a b r : List (BitVec 16)) : E (t a b r) (t' a b r) := ToomE.erase a b r
macro_rules | `(tactic| estep) => `(tactic| with_reducible exact Saber.Leak.M4.E_toom _ _ _ _ _)
theorem E_karaC (t : LKara) (t' : Kara) [KaraE t t'] (k : K4) : E (t k) (t' k) := KaraE.erase k
macro_rules | `(tactic| estep) => `(tactic| with_reducible exact Saber.Leak.M4.E_karaC _ _ _)
theorem E_sub64 (a : List (BitVec 16)) (off : Nat) : E (Saber.Leak.M4.sub64 a off) (Saber.M4.sub64 a off) := E.lift _
macro_rules | `(tactic| estep) => `(tactic| with_reducible exact Saber.Leak.M4.E_sub64 _ _)
theorem E_cmps (bytes vs : List Byte) : ∀ (fail : BitVec 32) (off : Nat),
    E (Saber.Leak.M4.cmps fail bytes off vs) (Saber.M4.cmps fail bytes off vs) := by
  induction vs with
  | nil => exact fun _ _ => E.pure _
  | cons v vs ih => exact fun _ _ => E.bind (E.rd _ _) fun _ => ih _ _
macro_rules | `(tactic| estep) => `(tactic| with_reducible exact Saber.Leak.M4.E_cmps _ _ _ _)
theorem E_lib_shake128 (lib : Fips202Lib) (out : List Byte) (outOff outlen : Nat) (inp : List Byte) (inOff inlen : Nat) : E (lib_shake128 lib out outOff outlen inp inOff inlen) (lib.shake128 out outOff outlen inp inOff inlen) := rfl
macro_rules | `(tactic| estep) => `(tactic| with_reducible exact Saber.Leak.M4.E_lib_shake128 _ _ _ _ _ _ _)
theorem E_lib_sha3_256 (lib : Fips202Lib) (out : List Byte) (outOff : Nat) (inp : List Byte) (inOff inlen : Nat) : E (lib_sha3_256 lib out outOff inp inOff inlen) (lib.sha3_256 out outOff inp inOff inlen) := rfl
macro_rules | `(tactic| estep) => `(tactic| with_reducible exact Saber.Leak.M4.E_lib_sha3_256 _ _ _ _ _ _)
theorem E_lib_sha3_512 (lib : Fips202Lib) (out : List Byte) (outOff : Nat) (inp : List Byte) (inOff inlen : Nat) : E (lib_sha3_512 lib out outOff inp inOff inlen) (lib.sha3_512 out outOff inp inOff inlen) := rfl
macro_rules | `(tactic| estep) => `(tactic| with_reducible exact Saber.Leak.M4.E_lib_sha3_512 _ _ _ _ _ _)
theorem E_lib_inc_init (lib : Fips202Lib)  : E (lib_inc_init lib ) (lib.inc_init ) := rfl
macro_rules | `(tactic| estep) => `(tactic| with_reducible exact Saber.Leak.M4.E_lib_inc_init _)
theorem E_lib_inc_absorb (lib : Fips202Lib) (ctx : lib.Ctx) (inp : List Byte) (inOff inlen : Nat) : E (lib_inc_absorb lib ctx inp inOff inlen) (lib.inc_absorb ctx inp inOff inlen) := rfl
macro_rules | `(tactic| estep) => `(tactic| with_reducible exact Saber.Leak.M4.E_lib_inc_absorb _ _ _ _ _)
theorem E_lib_inc_finalize (lib : Fips202Lib) (ctx : lib.Ctx) : E (lib_inc_finalize lib ctx) (lib.inc_finalize ctx) := rfl
macro_rules | `(tactic| estep) => `(tactic| with_reducible exact Saber.Leak.M4.E_lib_inc_finalize _ _)
theorem E_lib_inc_squeeze (lib : Fips202Lib) (out : List Byte) (outOff outlen : Nat) (ctx : lib.Ctx) : E (lib_inc_squeeze lib out outOff outlen ctx) (lib.inc_squeeze out outOff outlen ctx) := rfl
macro_rules | `(tactic| estep) => `(tactic| with_reducible exact Saber.Leak.M4.E_lib_inc_squeeze _ _ _ _ _)

theorem E_poly_mul (toom : LToom) (toom' : Toom) [ToomE toom toom'] (a : List (BitVec 16)) (b : List (BitVec 16)) (res : List (BitVec 16)) : E (Saber.Leak.M4.poly_mul toom a b res) (Saber.M4.poly_mul toom' a b res) := by
  unfold Saber.Leak.M4.poly_mul Saber.M4.poly_mul
  repeat estep
macro_rules | `(tactic| estep) => `(tactic| with_reducible exact Saber.Leak.M4.E_poly_mul _ _ _ _ _)

theorem E_poly_mul_acc (toom : LToom) (toom' : Toom) [ToomE toom toom'] (a : List (BitVec 16)) (b : List (BitVec 16)) (res : List (BitVec 16)) : E (Saber.Leak.M4.poly_mul_acc toom a b res) (Saber.M4.poly_mul_acc toom' a b res) := by
  unfold Saber.Leak.M4.poly_mul_acc Saber.M4.poly_mul_acc
  repeat estep
macro_rules | `(tactic| estep) => `(tactic| with_reducible exact Saber.Leak.M4.E_poly_mul_acc _ _ _ _ _)

theorem E_evalPt (r0 : BitVec 16) (r1 : BitVec 16) (r2 : BitVec 16) (r3 : BitVec 16) : E (Saber.Leak.M4.evalPt r0 r1 r2 r3) (Saber.M4.evalPt r0 r1 r2 r3) := by
  unfold Saber.Leak.M4.evalPt Saber.M4.evalPt
  repeat estep
macro_rules | `(tactic| estep) => `(tactic| with_reducible exact Saber.Leak.M4.E_evalPt _ _ _ _)

theorem E_evalA (a : List (BitVec 16)) (stack : List (BitVec 16)) : E (Saber.Leak.M4.evalA a stack) (Saber.M4.evalA a stack) := by
  unfold Saber.Leak.M4.evalA Saber.M4.evalA
  repeat estep
macro_rules | `(tactic| estep) => `(tactic| with_reducible exact Saber.Leak.M4.E_evalA _ _)

theorem E_evalB (b : List (BitVec 16)) (stack : List (BitVec 16)) : E (Saber.Leak.M4.evalB b stack) (Saber.M4.evalB b stack) := by
  unfold Saber.Leak.M4.evalB Saber.M4.evalB
  repeat estep
macro_rules | `(tactic| estep) => `(tactic| with_reducible exact Saber.Leak.M4.E_evalB _ _)

theorem E_mul1 (kara : LKara) (kara' : Kara) [KaraE kara kara'] (b : List (BitVec 16)) (stack : List (BitVec 16)) : E (Saber.Leak.M4.mul1 kara b stack) (Saber.M4.mul1 kara' b stack) := by
  unfold Saber.Leak.M4.mul1 Saber.M4.mul1
  repeat estep
macro_rules | `(tactic| estep) => `(tactic| with_reducible exact Saber.Leak.M4.E_mul1 _ _ _ _)

theorem E_mul2 (kara : LKara) (kara' : Kara) [KaraE kara kara'] (b : List (BitVec 16)) (stack : List (BitVec 16)) : E (Saber.Leak.M4.mul2 kara b stack) (Saber.M4.mul2 kara' b stack) := by
  unfold Saber.Leak.M4.mul2 Saber.M4.mul2
  repeat estep
macro_rules | `(tactic| estep) => `(tactic| with_reducible exact Saber.Leak.M4.E_mul2 _ _ _ _)

theorem E_mulK (kara : LKara) (kara' : Kara) [KaraE kara kara'] (k : Nat) (b : List (BitVec 16)) (stack : List (BitVec 16)) : E (Saber.Leak.M4.mulK kara k b stack) (Saber.M4.mulK kara' k b stack) := by
  unfold Saber.Leak.M4.mulK Saber.M4.mulK
  repeat estep
macro_rules | `(tactic| estep) => `(tactic| with_reducible exact Saber.Leak.M4.E_mulK _ _ _ _ _)

theorem E_mulShiftI (m : Arith) (t : Int) (inv : Int) (k : Nat) : E (Saber.Leak.M4.mulShiftI m t inv k) (Saber.M4.mulShiftI m t inv k) := by
  unfold Saber.Leak.M4.mulShiftI Saber.M4.mulShiftI
  cases m <;> repeat estep
macro_rules | `(tactic| estep) => `(tactic| with_reducible exact Saber.Leak.M4.E_mulShiftI _ _ _ _)

theorem E_interp (m : Arith) (r0 : BitVec 16) (r1 : BitVec 16) (r2 : BitVec 16) (r3 : BitVec 16) (r4 : BitVec 16) (r5 : BitVec 16) (r6 : BitVec 16) : E (Saber.Leak.M4.interp m r0 r1 r2 r3 r4 r5 r6) (Saber.M4.interp m r0 r1 r2 r3 r4 r5 r6) := by
  unfold Saber.Leak.M4.interp Saber.M4.interp
  repeat estep
macro_rules | `(tactic| estep) => `(tactic| with_reducible exact Saber.Leak.M4.E_interp _ _ _ _ _ _ _ _)

theorem E_interpStep (m : Arith) (b : List (BitVec 16)) (stack : List (BitVec 16)) (i : Nat) (s : IS) : E (Saber.Leak.M4.interpStep m b stack i s) (Saber.M4.interpStep m b stack i s) := by
  unfold Saber.Leak.M4.interpStep Saber.M4.interpStep
  repeat estep
macro_rules | `(tactic| estep) => `(tactic| with_reducible exact Saber.Leak.M4.E_interpStep _ _ _ _ _)

theorem E_strdProds (kara : LKara) (kara' : Kara) [KaraE kara kara'] (a : List (BitVec 16)) (b : List (BitVec 16)) : E (Saber.Leak.M4.strdProds kara a b) (Saber.M4.strdProds kara' a b) := by
  unfold Saber.Leak.M4.strdProds Saber.M4.strdProds
  repeat estep
macro_rules | `(tactic| estep) => `(tactic| with_reducible exact Saber.Leak.M4.E_strdProds _ _ _ _)

theorem E_toom_cook_4way_striding (m : Arith) (kara : LKara) (kara' : Kara) [KaraE kara kara'] (a b res : List (BitVec 16)) :
    E (Saber.Leak.M4.toom_cook_4way_striding m kara a b res) (Saber.M4.toom_cook_4way_striding m kara' a b res) := by
  unfold Saber.Leak.M4.toom_cook_4way_striding Saber.M4.toom_cook_4way_striding
  repeat estep
instance (m : Arith) (kara : LKara) (kara' : Kara) [KaraE kara kara'] :
    ToomE (Saber.Leak.M4.toom_cook_4way_striding m kara) (Saber.M4.toom_cook_4way_striding m kara') :=
  ⟨E_toom_cook_4way_striding m kara kara'⟩

theorem E_msgByte (data : List (BitVec 16)) (j : Nat) : E (Saber.Leak.M4.msgByte data j) (Saber.M4.msgByte data j) := by
  unfold Saber.Leak.M4.msgByte Saber.M4.msgByte
  repeat estep
macro_rules | `(tactic| estep) => `(tactic| with_reducible exact Saber.Leak.M4.E_msgByte _ _)

theorem E_POLmsg2BS (bytes : List Byte) (off : Nat) (data : List (BitVec 16)) : E (Saber.Leak.M4.POLmsg2BS bytes off data) (Saber.M4.POLmsg2BS bytes off data) := by
  unfold Saber.Leak.M4.POLmsg2BS Saber.M4.POLmsg2BS
  repeat estep
macro_rules | `(tactic| estep) => `(tactic| with_reducible exact Saber.Leak.M4.E_POLmsg2BS _ _ _)

theorem E_POLp2BS (bytes : List Byte) (off : Nat) (data : List (BitVec 16)) : E (Saber.Leak.M4.POLp2BS bytes off data) (Saber.M4.POLp2BS bytes off data) := by
  unfold Saber.Leak.M4.POLp2BS Saber.M4.POLp2BS
  repeat estep
macro_rules | `(tactic| estep) => `(tactic| with_reducible exact Saber.Leak.M4.E_POLp2BS _ _ _)

theorem E_POLp2BS_cmp (bytes : List Byte) (off : Nat) (data : List (BitVec 16)) : E (Saber.Leak.M4.POLp2BS_cmp bytes off data) (Saber.M4.POLp2BS_cmp bytes off data) := by
  unfold Saber.Leak.M4.POLp2BS_cmp Saber.M4.POLp2BS_cmp
  repeat estep
macro_rules | `(tactic| estep) => `(tactic| with_reducible exact Saber.Leak.M4.E_POLp2BS_cmp _ _ _)

theorem E_POLq2BS (bytes : List Byte) (off : Nat) (data : List (BitVec 16)) : E (Saber.Leak.M4.POLq2BS bytes off data) (Saber.M4.POLq2BS bytes off data) := by
  unfold Saber.Leak.M4.POLq2BS Saber.M4.POLq2BS
  repeat estep
macro_rules | `(tactic| estep) => `(tactic| with_reducible exact Saber.Leak.M4.E_POLq2BS _ _ _)

theorem E_blkT (P : PSet) (data : List (BitVec 16)) (j : Nat) : E (Saber.Leak.M4.blkT P data j) (Saber.M4.blkT P data j) := by
  unfold Saber.Leak.M4.blkT Saber.M4.blkT
  cases P <;> repeat estep
macro_rules | `(tactic| estep) => `(tactic| with_reducible exact Saber.Leak.M4.E_blkT _ _ _)

theorem E_POLT2BS (P : PSet) (bytes : List Byte) (off : Nat) (data : List (BitVec 16)) : E (Saber.Leak.M4.POLT2BS P bytes off data) (Saber.M4.POLT2BS P bytes off data) := by
  unfold Saber.Leak.M4.POLT2BS Saber.M4.POLT2BS
  repeat estep
macro_rules | `(tactic| estep) => `(tactic| with_reducible exact Saber.Leak.M4.E_POLT2BS _ _ _ _)

theorem E_POLT2BS_cmp (P : PSet) (bytes : List Byte) (off : Nat) (data : List (BitVec 16)) : E (Saber.Leak.M4.POLT2BS_cmp P bytes off data) (Saber.M4.POLT2BS_cmp P bytes off data) := by
  unfold Saber.Leak.M4.POLT2BS_cmp Saber.M4.POLT2BS_cmp
  repeat estep
macro_rules | `(tactic| estep) => `(tactic| with_reducible exact Saber.Leak.M4.E_POLT2BS_cmp _ _ _ _)

theorem E_BS2POLmsg (bytes : List Byte) (off : Nat) (data : List (BitVec 16)) : E (Saber.Leak.M4.BS2POLmsg bytes off data) (Saber.M4.BS2POLmsg bytes off data) := by
  unfold Saber.Leak.M4.BS2POLmsg Saber.M4.BS2POLmsg
  repeat estep
macro_rules | `(tactic| estep) => `(tactic| with_reducible exact Saber.Leak.M4.E_BS2POLmsg _ _ _)

theorem E_BS2POLp (bytes : List Byte) (off : Nat) (data : List (BitVec 16)) : E (Saber.Leak.M4.BS2POLp bytes off data) (Saber.M4.BS2POLp bytes off data) := by
  unfold Saber.Leak.M4.BS2POLp Saber.M4.BS2POLp
  repeat estep
macro_rules | `(tactic| estep) => `(tactic| with_reducible exact Saber.Leak.M4.E_BS2POLp _ _ _)

theorem E_BS2POLq (bytes : List Byte) (off : Nat) (data : List (BitVec 16)) : E (Saber.Leak.M4.BS2POLq bytes off data) (Saber.M4.BS2POLq bytes off data) := by
  unfold Saber.Leak.M4.BS2POLq Saber.M4.BS2POLq
  repeat estep
macro_rules | `(tactic| estep) => `(tactic| with_reducible exact Saber.Leak.M4.E_BS2POLq _ _ _)

theorem E_BS2POLT (P : PSet) (bytes : List Byte) (off : Nat) (data : List (BitVec 16)) : E (Saber.Leak.M4.BS2POLT P bytes off data) (Saber.M4.BS2POLT P bytes off data) := by
  unfold Saber.Leak.M4.BS2POLT Saber.M4.BS2POLT
  cases P <;> repeat estep
macro_rules | `(tactic| estep) => `(tactic| with_reducible exact Saber.Leak.M4.E_BS2POLT _ _ _ _)

theorem E_POLmu2BS_c (bytes : List Byte) (off : Nat) (data : List (BitVec 16)) : E (Saber.Leak.M4.POLmu2BS_c bytes off data) (Saber.M4.POLmu2BS_c bytes off data) := by
  unfold Saber.Leak.M4.POLmu2BS_c Saber.M4.POLmu2BS_c
  repeat estep
macro_rules | `(tactic| estep) => `(tactic| with_reducible exact Saber.Leak.M4.E_POLmu2BS_c _ _ _)

theorem E_BS2POLmu_c (bytes : List Byte) (off : Nat) (data : List (BitVec 16)) : E (Saber.Leak.M4.BS2POLmu_c bytes off data) (Saber.M4.BS2POLmu_c bytes off data) := by
  unfold Saber.Leak.M4.BS2POLmu_c Saber.M4.BS2POLmu_c
  repeat estep
macro_rules | `(tactic| estep) => `(tactic| with_reducible exact Saber.Leak.M4.E_BS2POLmu_c _ _ _)

theorem E_POLmu2BS (cs : Bool) (bytes : List Byte) (off : Nat) (data : List (BitVec 16)) :
    E (Saber.Leak.M4.POLmu2BS cs bytes off data) (Saber.M4.POLmu2BS cs bytes off data) := by
  unfold Saber.Leak.M4.POLmu2BS Saber.M4.POLmu2BS
  cases cs
  · exact E_POLq2BS bytes off data
  · exact E_POLmu2BS_c bytes off data
macro_rules | `(tactic| estep) => `(tactic| with_reducible exact Saber.Leak.M4.E_POLmu2BS _ _ _ _)

theorem E_BS2POLmu (cs : Bool) (bytes : List Byte) (off : Nat) (data : List (BitVec 16)) :
    E (Saber.Leak.M4.BS2POLmu cs bytes off data) (Saber.M4.BS2POLmu cs bytes off data) := by
  unfold Saber.Leak.M4.BS2POLmu Saber.M4.BS2POLmu
  cases cs
  · exact E_BS2POLq bytes off data
  · exact E_BS2POLmu_c bytes off data
macro_rules | `(tactic| estep) => `(tactic| with_reducible exact Saber.Leak.M4.E_BS2POLmu _ _ _ _)

theorem E_POLVECmu2BS (P : PSet) (cs : Bool) (bytes : List Byte) (off : Nat) (data : List (List (BitVec 16))) : E (Saber.Leak.M4.POLVECmu2BS P cs bytes off data) (Saber.M4.POLVECmu2BS P cs bytes off data) := by
  unfold Saber.Leak.M4.POLVECmu2BS Saber.M4.POLVECmu2BS
  repeat estep
macro_rules | `(tactic| estep) => `(tactic| with_reducible exact Saber.Leak.M4.E_POLVECmu2BS _ _ _ _ _)

theorem E_cmov (r : List Byte) (rOff : Nat) (x : List Byte) (xOff : Nat) (len : Nat) (b : Byte) : E (Saber.Leak.M4.cmov r rOff x xOff len b) (Saber.M4.cmov r rOff x xOff len b) := by
  unfold Saber.Leak.M4.cmov Saber.M4.cmov
  repeat estep
macro_rules | `(tactic| estep) => `(tactic| with_reducible exact Saber.Leak.M4.E_cmov _ _ _ _ _ _)

theorem E_load_littleendian32 (x : List Byte) (off : Nat) (bytes : Nat) : E (Saber.Leak.M4.load_littleendian32 x off bytes) (Saber.M4.load_littleendian32 x off bytes) := by
  unfold Saber.Leak.M4.load_littleendian32 Saber.M4.load_littleendian32
  repeat estep
macro_rules | `(tactic| estep) => `(tactic| with_reducible exact Saber.Leak.M4.E_load_littleendian32 _ _ _)

theorem E_cbd (P : PSet) (s : List (BitVec 16)) (buf : List Byte) (off : Nat) : E (Saber.Leak.M4.cbd P s buf off) (Saber.M4.cbd P s buf off) := by
  unfold Saber.Leak.M4.cbd Saber.M4.cbd
  cases P <;> repeat estep
macro_rules | `(tactic| estep) => `(tactic| with_reducible exact Saber.Leak.M4.E_cbd _ _ _ _)

theorem E_shake128_absorb_seed (lib : Fips202Lib) (seed : List Byte) (off : Nat) : E (Saber.Leak.M4.shake128_absorb_seed lib seed off) (Saber.M4.shake128_absorb_seed lib seed off) := by
  unfold Saber.Leak.M4.shake128_absorb_seed Saber.M4.shake128_absorb_seed
  repeat estep
macro_rules | `(tactic| estep) => `(tactic| with_reducible exact Saber.Leak.M4.E_shake128_absorb_seed _ _ _)

theorem E_shake128_squeeze_poly (lib : Fips202Lib) (poly : List (BitVec 16)) (ctx : lib.Ctx) : E (Saber.Leak.M4.shake128_squeeze_poly lib poly ctx) (Saber.M4.shake128_squeeze_poly lib poly ctx) := by
  unfold Saber.Leak.M4.shake128_squeeze_poly Saber.M4.shake128_squeeze_poly
  repeat estep
macro_rules | `(tactic| estep) => `(tactic| with_reducible exact Saber.Leak.M4.E_shake128_squeeze_poly _ _ _)

theorem E_shake128_squeeze_secret (P : PSet) (lib : Fips202Lib) (s : List (BitVec 16)) (ctx : lib.Ctx) : E (Saber.Leak.M4.shake128_squeeze_secret P lib s ctx) (Saber.M4.shake128_squeeze_secret P lib s ctx) := by
  unfold Saber.Leak.M4.shake128_squeeze_secret Saber.M4.shake128_squeeze_secret
  repeat estep
macro_rules | `(tactic| estep) => `(tactic| with_reducible exact Saber.Leak.M4.E_shake128_squeeze_secret _ _ _ _)

theorem E_GenSecret (P : PSet) (lib : Fips202Lib) (cs : Bool) (s : List (List (BitVec 16))) (seed : List Byte) (off : Nat) (keypair : Int) : E (Saber.Leak.M4.GenSecret P lib cs s seed off keypair) (Saber.M4.GenSecret P lib cs s seed off keypair) := by
  unfold Saber.Leak.M4.GenSecret Saber.M4.GenSecret
  repeat estep
macro_rules | `(tactic| estep) => `(tactic| with_reducible exact Saber.Leak.M4.E_GenSecret _ _ _ _ _ _ _)

theorem E_mulAcc (toom : LToom) (toom' : Toom) [ToomE toom toom'] (first : Bool) (s : List (BitVec 16)) (A : List (BitVec 16)) (r : List (BitVec 16)) : E (Saber.Leak.M4.mulAcc toom first s A r) (Saber.M4.mulAcc toom' first s A r) := by
  unfold Saber.Leak.M4.mulAcc Saber.M4.mulAcc
  repeat estep
macro_rules | `(tactic| estep) => `(tactic| with_reducible exact Saber.Leak.M4.E_mulAcc _ _ _ _ _ _)

theorem E_kpInner (lib : Fips202Lib) (toom : LToom) (toom' : Toom) [ToomE toom toom'] (i : Nat) (j : Nat) (st : KP lib.Ctx) : E (Saber.Leak.M4.kpInner lib toom i j st) (Saber.M4.kpInner lib toom' i j st) := by
  unfold Saber.Leak.M4.kpInner Saber.M4.kpInner
  repeat estep
macro_rules | `(tactic| estep) => `(tactic| with_reducible exact Saber.Leak.M4.E_kpInner _ _ _ _ _ _)

theorem E_kpOuter (P : PSet) (lib : Fips202Lib) (toom : LToom) (toom' : Toom) [ToomE toom toom'] (cs : Bool) (i : Nat) (st : KP lib.Ctx) : E (Saber.Leak.M4.kpOuter P lib toom cs i st) (Saber.M4.kpOuter P lib toom' cs i st) := by
  unfold Saber.Leak.M4.kpOuter Saber.M4.kpOuter
  repeat estep
macro_rules | `(tactic| estep) => `(tactic| with_reducible exact Saber.Leak.M4.E_kpOuter _ _ _ _ _ _ _)

theorem E_roundPoly (b : List (BitVec 16)) : E (Saber.Leak.M4.roundPoly b) (Saber.M4.roundPoly b) := by
  unfold Saber.Leak.M4.roundPoly Saber.M4.roundPoly
  repeat estep
macro_rules | `(tactic| estep) => `(tactic| with_reducible exact Saber.Leak.M4.E_roundPoly _)

theorem E_MatrixVectorMulKeyPair (P : PSet) (lib : Fips202Lib) (toom : LToom) (toom' : Toom) [ToomE toom toom'] (cs : Bool) (pk : List Byte) (sk : List Byte) : E (Saber.Leak.M4.MatrixVectorMulKeyPair P lib toom cs pk sk) (Saber.M4.MatrixVectorMulKeyPair P lib toom' cs pk sk) := by
  unfold Saber.Leak.M4.MatrixVectorMulKeyPair Saber.M4.MatrixVectorMulKeyPair
  repeat estep
macro_rules | `(tactic| estep) => `(tactic| with_reducible exact Saber.Leak.M4.E_MatrixVectorMulKeyPair _ _ _ _ _ _ _)

theorem E_meInner (P : PSet) (lib : Fips202Lib) (toom : LToom) (toom' : Toom) [ToomE toom toom'] (sp : List (List (BitVec 16))) (st : ME lib.Ctx) : E (Saber.Leak.M4.meInner P lib toom sp st) (Saber.M4.meInner P lib toom' sp st) := by
  unfold Saber.Leak.M4.meInner Saber.M4.meInner
  repeat estep
macro_rules | `(tactic| estep) => `(tactic| with_reducible exact Saber.Leak.M4.E_meInner _ _ _ _ _ _)

theorem E_MatrixVectorMulEnc (P : PSet) (lib : Fips202Lib) (toom : LToom) (toom' : Toom) [ToomE toom toom'] (ct : List Byte) (ctOff : Nat) (seed : List Byte) (off : Nat) (sp : List (List (BitVec 16))) : E (Saber.Leak.M4.MatrixVectorMulEnc P lib toom ct ctOff seed off sp) (Saber.M4.MatrixVectorMulEnc P lib toom' ct ctOff seed off sp) := by
  unfold Saber.Leak.M4.MatrixVectorMulEnc Saber.M4.MatrixVectorMulEnc
  repeat estep
macro_rules | `(tactic| estep) => `(tactic| with_reducible exact Saber.Leak.M4.E_MatrixVectorMulEnc _ _ _ _ _ _ _ _ _)

theorem E_MatrixVectorMulEnc_cmp (P : PSet) (lib : Fips202Lib) (toom : LToom) (toom' : Toom) [ToomE toom toom'] (ct : List Byte) (ctOff : Nat) (seed : List Byte) (off : Nat) (sp : List (List (BitVec 16))) : E (Saber.Leak.M4.MatrixVectorMulEnc_cmp P lib toom ct ctOff seed off sp) (Saber.M4.MatrixVectorMulEnc_cmp P lib toom' ct ctOff seed off sp) := by
  unfold Saber.Leak.M4.MatrixVectorMulEnc_cmp Saber.M4.MatrixVectorMulEnc_cmp
  repeat estep
macro_rules | `(tactic| estep) => `(tactic| with_reducible exact Saber.Leak.M4.E_MatrixVectorMulEnc_cmp _ _ _ _ _ _ _ _ _)

theorem E_innerProdEncV (P : PSet) (toom : LToom) (toom' : Toom) [ToomE toom toom'] (pk : List Byte) (pkOff : Nat) (sp : List (List (BitVec 16))) (m : List Byte) (mOff : Nat) : E (Saber.Leak.M4.innerProdEncV P toom pk pkOff sp m mOff) (Saber.M4.innerProdEncV P toom' pk pkOff sp m mOff) := by
  unfold Saber.Leak.M4.innerProdEncV Saber.M4.innerProdEncV
  repeat estep
macro_rules | `(tactic| estep) => `(tactic| with_reducible exact Saber.Leak.M4.E_innerProdEncV _ _ _ _ _ _ _ _)

theorem E_InnerProdEnc (P : PSet) (toom : LToom) (toom' : Toom) [ToomE toom toom'] (ct : List Byte) (ctOff : Nat) (pk : List Byte) (pkOff : Nat) (sp : List (List (BitVec 16))) (m : List Byte) (mOff : Nat) : E (Saber.Leak.M4.InnerProdEnc P toom ct ctOff pk pkOff sp m mOff) (Saber.M4.InnerProdEnc P toom' ct ctOff pk pkOff sp m mOff) := by
  unfold Saber.Leak.M4.InnerProdEnc Saber.M4.InnerProdEnc
  repeat estep
macro_rules | `(tactic| estep) => `(tactic| with_reducible exact Saber.Leak.M4.E_InnerProdEnc _ _ _ _ _ _ _ _ _ _)

theorem E_InnerProdEnc_cmp (P : PSet) (toom : LToom) (toom' : Toom) [ToomE toom toom'] (ct : List Byte) (ctOff : Nat) (pk : List Byte) (pkOff : Nat) (sp : List (List (BitVec 16))) (m : List Byte) (mOff : Nat) : E (Saber.Leak.M4.InnerProdEnc_cmp P toom ct ctOff pk pkOff sp m mOff) (Saber.M4.InnerProdEnc_cmp P toom' ct ctOff pk pkOff sp m mOff) := by
  unfold Saber.Leak.M4.InnerProdEnc_cmp Saber.M4.InnerProdEnc_cmp
  repeat estep
macro_rules | `(tactic| estep) => `(tactic| with_reducible exact Saber.Leak.M4.E_InnerProdEnc_cmp _ _ _ _ _ _ _ _ _ _)

theorem E_InnerProdDec (P : PSet) (toom : LToom) (toom' : Toom) [ToomE toom toom'] (cs : Bool) (m : List Byte) (ct : List Byte) (sk : List Byte) : E (Saber.Leak.M4.InnerProdDec P toom cs m ct sk) (Saber.M4.InnerProdDec P toom' cs m ct sk) := by
  unfold Saber.Leak.M4.InnerProdDec Saber.M4.InnerProdDec
  repeat estep
macro_rules | `(tactic| estep) => `(tactic| with_reducible exact Saber.Leak.M4.E_InnerProdDec _ _ _ _ _ _ _)

theorem E_indcpa_kem_keypair {σ : Type} (P : PSet) (lib : Fips202Lib) (toom : LToom) (toom' : Toom) [ToomE toom toom'] (cs : Bool) (rb : RandomBytes σ) (pk : List Byte) (sk : List Byte) (st : σ) : E (Saber.Leak.M4.indcpa_kem_keypair P lib toom cs rb pk sk st) (Saber.M4.indcpa_kem_keypair P lib toom' cs rb pk sk st) := by
  unfold Saber.Leak.M4.indcpa_kem_keypair Saber.M4.indcpa_kem_keypair
  repeat estep
macro_rules | `(tactic| estep) => `(tactic| with_reducible exact Saber.Leak.M4.E_indcpa_kem_keypair _ _ _ _ _ _ _ _ _)

theorem E_indcpa_kem_enc (P : PSet) (lib : Fips202Lib) (toom : LToom) (toom' : Toom) [ToomE toom toom'] (cs : Bool) (m : List Byte) (mOff : Nat) (seed_sp : List Byte) (seedOff : Nat) (pk : List Byte) (pkOff : Nat) (ciphertext : List Byte) : E (Saber.Leak.M4.indcpa_kem_enc P lib toom cs m mOff seed_sp seedOff pk pkOff ciphertext) (Saber.M4.indcpa_kem_enc P lib toom' cs m mOff seed_sp seedOff pk pkOff ciphertext) := by
  unfold Saber.Leak.M4.indcpa_kem_enc Saber.M4.indcpa_kem_enc
  repeat estep
macro_rules | `(tactic| estep) => `(tactic| with_reducible exact Saber.Leak.M4.E_indcpa_kem_enc _ _ _ _ _ _ _ _ _ _ _ _)

theorem E_indcpa_kem_enc_cmp (P : PSet) (lib : Fips202Lib) (toom : LToom) (toom' : Toom) [ToomE toom toom'] (cs : Bool) (m : List Byte) (mOff : Nat) (seed_sp : List Byte) (seedOff : Nat) (pk : List Byte) (pkOff : Nat) (ciphertext : List Byte) : E (Saber.Leak.M4.indcpa_kem_enc_cmp P lib toom cs m mOff seed_sp seedOff pk pkOff ciphertext) (Saber.M4.indcpa_kem_enc_cmp P lib toom' cs m mOff seed_sp seedOff pk pkOff ciphertext) := by
  unfold Saber.Leak.M4.indcpa_kem_enc_cmp Saber.M4.indcpa_kem_enc_cmp
  repeat estep
macro_rules | `(tactic| estep) => `(tactic| with_reducible exact Saber.Leak.M4.E_indcpa_kem_enc_cmp _ _ _ _ _ _ _ _ _ _ _ _)

theorem E_indcpa_kem_dec (P : PSet) (toom : LToom) (toom' : Toom) [ToomE toom toom'] (cs : Bool) (sk : List Byte) (ciphertext : List Byte) (m : List Byte) : E (Saber.Leak.M4.indcpa_kem_dec P toom cs sk ciphertext m) (Saber.M4.indcpa_kem_dec P toom' cs sk ciphertext m) := by
  unfold Saber.Leak.M4.indcpa_kem_dec Saber.M4.indcpa_kem_dec
  repeat estep
macro_rules | `(tactic| estep) => `(tactic| with_reducible exact Saber.Leak.M4.E_indcpa_kem_dec _ _ _ _ _ _ _)

theorem E_crypto_kem_keypair {σ : Type} (P : PSet) (lib : Fips202Lib) (toom : LToom) (toom' : Toom) [ToomE toom toom'] (cs : Bool) (rb : RandomBytes σ) (pk : List Byte) (sk : List Byte) (st : σ) : E (Saber.Leak.M4.crypto_kem_keypair P lib toom cs rb pk sk st) (Saber.M4.crypto_kem_keypair P lib toom' cs rb pk sk st) := by
  unfold Saber.Leak.M4.crypto_kem_keypair Saber.M4.crypto_kem_keypair
  repeat estep
macro_rules | `(tactic| estep) => `(tactic| with_reducible exact Saber.Leak.M4.E_crypto_kem_keypair _ _ _ _ _ _ _ _ _)

theorem E_crypto_kem_enc {σ : Type} (P : PSet) (lib : Fips202Lib) (toom : LToom) (toom' : Toom) [ToomE toom toom'] (cs : Bool) (rb : RandomBytes σ) (c : List Byte) (k : List Byte) (pk : List Byte) (st : σ) : E (Saber.Leak.M4.crypto_kem_enc P lib toom cs rb c k pk st) (Saber.M4.crypto_kem_enc P lib toom' cs rb c k pk st) := by
  unfold Saber.Leak.M4.crypto_kem_enc Saber.M4.crypto_kem_enc
  repeat estep
macro_rules | `(tactic| estep) => `(tactic| with_reducible exact Saber.Leak.M4.E_crypto_kem_enc _ _ _ _ _ _ _ _ _ _)

theorem E_crypto_kem_dec (P : PSet) (lib : Fips202Lib) (toom : LToom) (toom' : Toom) [ToomE toom toom'] (cs : Bool) (k : List Byte) (c : List Byte) (sk : List Byte) : E (Saber.Leak.M4.crypto_kem_dec P lib toom cs k c sk) (Saber.M4.crypto_kem_dec P lib toom' cs k c sk) := by
  unfold Saber.Leak.M4.crypto_kem_dec Saber.M4.crypto_kem_dec
  repeat estep
macro_rules | `(tactic| estep) => `(tactic| with_reducible exact Saber.Leak.M4.E_crypto_kem_dec _ _ _ _ _ _ _ _)

end Saber.Leak.M4
