import Verif.Model.Leak.M4
import Verif.Proof.Leak.ConstTime
/-! # Cortex-M4: the events do not depend on the data -/
set_option linter.unusedSectionVars false

namespace Saber.Leak.M4
open Saber.M4

/-- The events of two linked multiplications do not depend on the data. -/
class ToomCT (t t' : LToom) : Prop where
  /-- see above -/
  ct : ∀ a a' b b' r r', CT (t a b r) (t' a' b' r')
/-- see `ToomCT` -/
class KaraCT (t t' : LKara) : Prop where
  /-- see above -/
  ct : ∀ k k', CT (t k) (t' k')
theorem CT_toom (t t' : LToom) [ToomCT t t'] (a a' b b' r r' : List (BitVec 16)) : CT (t a b r) (t' a' b' r') := ToomCT.ct a a' b b' r r'
macro_rules | `(tactic| ctstep) => `(tactic| with_reducible exact Saber.Leak.M4.CT_toom _ _ _ _ _ _ _ _)
theorem CT_karaC (t t' : LKara) [KaraCT t t'] (k k' : K4) : CT (t k) (t' k') := KaraCT.ct k k'
macro_rules | `(tactic| ctstep) => `(tactic| with_reducible exact Saber.Leak.M4.CT_karaC _ _ _ _)
theorem CT_sub64 (a a' : List (BitVec 16)) (off : Nat) : CT (Saber.Leak.M4.sub64 a off) (Saber.Leak.M4.sub64 a' off) := CT.lift _ _
macro_rules | `(tactic| ctstep) => `(tactic| with_reducible exact Saber.Leak.M4.CT_sub64 _ _ _)
theorem CT_cmps (bytes bytes' vs vs' : List Byte) (h : vs.length = vs'.length) : ∀ (fail fail' : BitVec 32) (off : Nat),
    CT (Saber.Leak.M4.cmps fail bytes off vs) (Saber.Leak.M4.cmps fail' bytes' off vs') := by
  induction vs generalizing vs' with
  | nil =>
    cases vs' with
    | nil => exact fun _ _ _ => CT.pure _ _
    | cons _ _ => cases h
  | cons v vs ih =>
    cases vs' with
    | nil => cases h
    | cons v' vs' => exact fun _ _ _ => CT.bind (CT.rd _ _ _) fun _ _ => ih vs' (Nat.succ.inj h) _ _ _
macro_rules | `(tactic| ctstep) => `(tactic| (with_reducible refine Saber.Leak.M4.CT_cmps _ _ _ _ ?_ _ _ _) <;> rfl)
theorem CT_call {α β : Type} (e : Event) (x : CM α) (y : CM β) : CT (⟨[e], x⟩ : LM α) (⟨[e], y⟩ : LM β) := ⟨fun _ _ _ _ => ⟨rfl, trivial⟩⟩
theorem CT_lib_shake128 (lib : Fips202Lib) (out out' : List Byte) (outOff outlen : Nat) (inp inp' : List Byte) (inOff inlen : Nat) : CT (lib_shake128 lib out outOff outlen inp inOff inlen) (lib_shake128 lib out' outOff outlen inp' inOff inlen) := CT_call _ _ _
macro_rules | `(tactic| ctstep) => `(tactic| with_reducible exact Saber.Leak.M4.CT_lib_shake128 _ _ _ _ _ _ _ _ _)
theorem CT_lib_sha3_256 (lib : Fips202Lib) (out out' : List Byte) (outOff : Nat) (inp inp' : List Byte) (inOff inlen : Nat) : CT (lib_sha3_256 lib out outOff inp inOff inlen) (lib_sha3_256 lib out' outOff inp' inOff inlen) := CT_call _ _ _
macro_rules | `(tactic| ctstep) => `(tactic| with_reducible exact Saber.Leak.M4.CT_lib_sha3_256 _ _ _ _ _ _ _ _)
theorem CT_lib_sha3_512 (lib : Fips202Lib) (out out' : List Byte) (outOff : Nat) (inp inp' : List Byte) (inOff inlen : Nat) : CT (lib_sha3_512 lib out outOff inp inOff inlen) (lib_sha3_512 lib out' outOff inp' inOff inlen) := CT_call _ _ _
macro_rules | `(tactic| ctstep) => `(tactic| with_reducible exact Saber.Leak.M4.CT_lib_sha3_512 _ _ _ _ _ _ _ _)
theorem CT_lib_inc_init (lib : Fips202Lib)  : CT (lib_inc_init lib ) (lib_inc_init lib ) := CT_call _ _ _
macro_rules | `(tactic| ctstep) => `(tactic| with_reducible exact Saber.Leak.M4.CT_lib_inc_init _)
theorem CT_lib_inc_absorb (lib : Fips202Lib) (ctx ctx' : lib.Ctx) (inp inp' : List Byte) (inOff inlen : Nat) : CT (lib_inc_absorb lib ctx inp inOff inlen) (lib_inc_absorb lib ctx' inp' inOff inlen) := CT_call _ _ _
macro_rules | `(tactic| ctstep) => `(tactic| with_reducible exact Saber.Leak.M4.CT_lib_inc_absorb _ _ _ _ _ _ _)
theorem CT_lib_inc_finalize (lib : Fips202Lib) (ctx ctx' : lib.Ctx) : CT (lib_inc_finalize lib ctx) (lib_inc_finalize lib ctx') := CT_call _ _ _
macro_rules | `(tactic| ctstep) => `(tactic| with_reducible exact Saber.Leak.M4.CT_lib_inc_finalize _ _ _)
theorem CT_lib_inc_squeeze (lib : Fips202Lib) (out out' : List Byte) (outOff outlen : Nat) (ctx ctx' : lib.Ctx) : CT (lib_inc_squeeze lib out outOff outlen ctx) (lib_inc_squeeze lib out' outOff outlen ctx') := CT_call _ _ _
macro_rules | `(tactic| ctstep) => `(tactic| with_reducible exact Saber.Leak.M4.CT_lib_inc_squeeze _ _ _ _ _ _ _)

theorem CT_poly_mul (toom : LToom) (toom' : LToom) [ToomCT toom toom'] (a : List (BitVec 16)) (a' : List (BitVec 16)) (b : List (BitVec 16)) (b' : List (BitVec 16)) (res : List (BitVec 16)) (res' : List (BitVec 16)) :
    CT (Saber.Leak.M4.poly_mul toom a b res) (Saber.Leak.M4.poly_mul toom' a' b' res') := by
  unfold Saber.Leak.M4.poly_mul
  repeat ctstep
macro_rules | `(tactic| ctstep) => `(tactic| with_reducible exact Saber.Leak.M4.CT_poly_mul _ _ _ _ _ _ _ _)

theorem CT_poly_mul_acc (toom : LToom) (toom' : LToom) [ToomCT toom toom'] (a : List (BitVec 16)) (a' : List (BitVec 16)) (b : List (BitVec 16)) (b' : List (BitVec 16)) (res : List (BitVec 16)) (res' : List (BitVec 16)) :
    CT (Saber.Leak.M4.poly_mul_acc toom a b res) (Saber.Leak.M4.poly_mul_acc toom' a' b' res') := by
  unfold Saber.Leak.M4.poly_mul_acc
  repeat ctstep
macro_rules | `(tactic| ctstep) => `(tactic| with_reducible exact Saber.Leak.M4.CT_poly_mul_acc _ _ _ _ _ _ _ _)

theorem CT_evalPt (r0 : BitVec 16) (r0' : BitVec 16) (r1 : BitVec 16) (r1' : BitVec 16) (r2 : BitVec 16) (r2' : BitVec 16) (r3 : BitVec 16) (r3' : BitVec 16) :
    CT (Saber.Leak.M4.evalPt r0 r1 r2 r3) (Saber.Leak.M4.evalPt r0' r1' r2' r3') := by
  unfold Saber.Leak.M4.evalPt
  repeat ctstep
macro_rules | `(tactic| ctstep) => `(tactic| with_reducible exact Saber.Leak.M4.CT_evalPt _ _ _ _ _ _ _ _)

theorem CT_evalA (a : List (BitVec 16)) (a' : List (BitVec 16)) (stack : List (BitVec 16)) (stack' : List (BitVec 16)) :
    CT (Saber.Leak.M4.evalA a stack) (Saber.Leak.M4.evalA a' stack') := by
  unfold Saber.Leak.M4.evalA
  repeat ctstep
macro_rules | `(tactic| ctstep) => `(tactic| with_reducible exact Saber.Leak.M4.CT_evalA _ _ _ _)

theorem CT_evalB (b : List (BitVec 16)) (b' : List (BitVec 16)) (stack : List (BitVec 16)) (stack' : List (BitVec 16)) :
    CT (Saber.Leak.M4.evalB b stack) (Saber.Leak.M4.evalB b' stack') := by
  unfold Saber.Leak.M4.evalB
  repeat ctstep
macro_rules | `(tactic| ctstep) => `(tactic| with_reducible exact Saber.Leak.M4.CT_evalB _ _ _ _)

theorem CT_mul1 (kara : LKara) (kara' : LKara) [KaraCT kara kara'] (b : List (BitVec 16)) (b' : List (BitVec 16)) (stack : List (BitVec 16)) (stack' : List (BitVec 16)) :
    CT (Saber.Leak.M4.mul1 kara b stack) (Saber.Leak.M4.mul1 kara' b' stack') := by
  unfold Saber.Leak.M4.mul1
  repeat ctstep
macro_rules | `(tactic| ctstep) => `(tactic| with_reducible exact Saber.Leak.M4.CT_mul1 _ _ _ _ _ _)

theorem CT_mul2 (kara : LKara) (kara' : LKara) [KaraCT kara kara'] (b : List (BitVec 16)) (b' : List (BitVec 16)) (stack : List (BitVec 16)) (stack' : List (BitVec 16)) :
    CT (Saber.Leak.M4.mul2 kara b stack) (Saber.Leak.M4.mul2 kara' b' stack') := by
  unfold Saber.Leak.M4.mul2
  repeat ctstep
macro_rules | `(tactic| ctstep) => `(tactic| with_reducible exact Saber.Leak.M4.CT_mul2 _ _ _ _ _ _)

theorem CT_mulK (kara : LKara) (kara' : LKara) [KaraCT kara kara'] (k : Nat) (b : List (BitVec 16)) (b' : List (BitVec 16)) (stack : List (BitVec 16)) (stack' : List (BitVec 16)) :
    CT (Saber.Leak.M4.mulK kara k b stack) (Saber.Leak.M4.mulK kara' k b' stack') := by
  unfold Saber.Leak.M4.mulK
  repeat ctstep
macro_rules | `(tactic| ctstep) => `(tactic| with_reducible exact Saber.Leak.M4.CT_mulK _ _ _ _ _ _ _)

theorem CT_mulShiftI (m : Arith) (t : Int) (t' : Int) (inv : Int) (inv' : Int) (k : Nat) :
    CT (Saber.Leak.M4.mulShiftI m t inv k) (Saber.Leak.M4.mulShiftI m t' inv' k) := by
  unfold Saber.Leak.M4.mulShiftI
  cases m <;> repeat ctstep
macro_rules | `(tactic| ctstep) => `(tactic| with_reducible exact Saber.Leak.M4.CT_mulShiftI _ _ _ _ _ _)

theorem CT_interp (m : Arith) (r0 : BitVec 16) (r0' : BitVec 16) (r1 : BitVec 16) (r1' : BitVec 16) (r2 : BitVec 16) (r2' : BitVec 16) (r3 : BitVec 16) (r3' : BitVec 16) (r4 : BitVec 16) (r4' : BitVec 16) (r5 : BitVec 16) (r5' : BitVec 16) (r6 : BitVec 16) (r6' : BitVec 16) :
    CT (Saber.Leak.M4.interp m r0 r1 r2 r3 r4 r5 r6) (Saber.Leak.M4.interp m r0' r1' r2' r3' r4' r5' r6') := by
  unfold Saber.Leak.M4.interp
  repeat ctstep
macro_rules | `(tactic| ctstep) => `(tactic| with_reducible exact Saber.Leak.M4.CT_interp _ _ _ _ _ _ _ _ _ _ _ _ _ _ _)

theorem CT_interpStep (m : Arith) (b : List (BitVec 16)) (b' : List (BitVec 16)) (stack : List (BitVec 16)) (stack' : List (BitVec 16)) (i : Nat) (s : IS) (s' : IS) :
    CT (Saber.Leak.M4.interpStep m b stack i s) (Saber.Leak.M4.interpStep m b' stack' i s') := by
  unfold Saber.Leak.M4.interpStep
  repeat ctstep
macro_rules | `(tactic| ctstep) => `(tactic| with_reducible exact Saber.Leak.M4.CT_interpStep _ _ _ _ _ _ _ _)

theorem CT_strdProds (kara : LKara) (kara' : LKara) [KaraCT kara kara'] (a : List (BitVec 16)) (a' : List (BitVec 16)) (b : List (BitVec 16)) (b' : List (BitVec 16)) :
    CT (Saber.Leak.M4.strdProds kara a b) (Saber.Leak.M4.strdProds kara' a' b') := by
  unfold Saber.Leak.M4.strdProds
  repeat ctstep
macro_rules | `(tactic| ctstep) => `(tactic| with_reducible exact Saber.Leak.M4.CT_strdProds _ _ _ _ _ _)

theorem CT_toom_cook_4way_striding (m : Arith) (kara kara' : LKara) [KaraCT kara kara'] (a a' b b' res res' : List (BitVec 16)) :
    CT (Saber.Leak.M4.toom_cook_4way_striding m kara a b res) (Saber.Leak.M4.toom_cook_4way_striding m kara' a' b' res') := by
  unfold Saber.Leak.M4.toom_cook_4way_striding
  repeat ctstep
instance (m : Arith) (kara kara' : LKara) [KaraCT kara kara'] :
    ToomCT (Saber.Leak.M4.toom_cook_4way_striding m kara) (Saber.Leak.M4.toom_cook_4way_striding m kara') :=
  ⟨CT_toom_cook_4way_striding m kara kara'⟩

theorem CT_msgByte (data : List (BitVec 16)) (data' : List (BitVec 16)) (j : Nat) :
    CT (Saber.Leak.M4.msgByte data j) (Saber.Leak.M4.msgByte data' j) := by
  unfold Saber.Leak.M4.msgByte
  repeat ctstep
macro_rules | `(tactic| ctstep) => `(tactic| with_reducible exact Saber.Leak.M4.CT_msgByte _ _ _)

theorem CT_POLmsg2BS (bytes : List Byte) (bytes' : List Byte) (off : Nat) (data : List (BitVec 16)) (data' : List (BitVec 16)) :
    CT (Saber.Leak.M4.POLmsg2BS bytes off data) (Saber.Leak.M4.POLmsg2BS bytes' off data') := by
  unfold Saber.Leak.M4.POLmsg2BS
  repeat ctstep
macro_rules | `(tactic| ctstep) => `(tactic| with_reducible exact Saber.Leak.M4.CT_POLmsg2BS _ _ _ _ _)

theorem CT_POLp2BS (bytes : List Byte) (bytes' : List Byte) (off : Nat) (data : List (BitVec 16)) (data' : List (BitVec 16)) :
    CT (Saber.Leak.M4.POLp2BS bytes off data) (Saber.Leak.M4.POLp2BS bytes' off data') := by
  unfold Saber.Leak.M4.POLp2BS
  repeat ctstep
macro_rules | `(tactic| ctstep) => `(tactic| with_reducible exact Saber.Leak.M4.CT_POLp2BS _ _ _ _ _)

theorem CT_POLp2BS_cmp (bytes : List Byte) (bytes' : List Byte) (off : Nat) (data : List (BitVec 16)) (data' : List (BitVec 16)) :
    CT (Saber.Leak.M4.POLp2BS_cmp bytes off data) (Saber.Leak.M4.POLp2BS_cmp bytes' off data') := by
  unfold Saber.Leak.M4.POLp2BS_cmp
  repeat ctstep
macro_rules | `(tactic| ctstep) => `(tactic| with_reducible exact Saber.Leak.M4.CT_POLp2BS_cmp _ _ _ _ _)

theorem CT_POLq2BS (bytes : List Byte) (bytes' : List Byte) (off : Nat) (data : List (BitVec 16)) (data' : List (BitVec 16)) :
    CT (Saber.Leak.M4.POLq2BS bytes off data) (Saber.Leak.M4.POLq2BS bytes' off data') := by
  unfold Saber.Leak.M4.POLq2BS
  repeat ctstep
macro_rules | `(tactic| ctstep) => `(tactic| with_reducible exact Saber.Leak.M4.CT_POLq2BS _ _ _ _ _)

theorem R2_blkT (P : PSet) (data data' : List (BitVec 16)) (j : Nat) :
    R2 (Saber.Leak.M4.blkT P data j) (Saber.Leak.M4.blkT P data' j) fun x y => x.length = y.length := by
  unfold Saber.Leak.M4.blkT
  cases P
  all_goals
    repeat first
      | exact R2.pure rfl
      | ctstep

theorem CT_POLT2BS (P : PSet) (bytes bytes' : List Byte) (off : Nat) (data data' : List (BitVec 16)) :
    CT (Saber.Leak.M4.POLT2BS P bytes off data) (Saber.Leak.M4.POLT2BS P bytes' off data') := by
  unfold Saber.Leak.M4.POLT2BS
  refine CT.loop (fun j x x' => ?_) _ _ _
  refine R2.bind (R2_blkT P data data' j) fun _ _ h => ?_
  exact CT.wrs _ _ h _ _ _
macro_rules | `(tactic| ctstep) => `(tactic| with_reducible exact Saber.Leak.M4.CT_POLT2BS _ _ _ _ _ _)

theorem CT_POLT2BS_cmp (P : PSet) (bytes bytes' : List Byte) (off : Nat) (data data' : List (BitVec 16)) :
    CT (Saber.Leak.M4.POLT2BS_cmp P bytes off data) (Saber.Leak.M4.POLT2BS_cmp P bytes' off data') := by
  unfold Saber.Leak.M4.POLT2BS_cmp
  refine CT.loop (fun j x x' => ?_) _ _ _
  refine R2.bind (R2_blkT P data data' j) fun _ _ h => ?_
  exact CT_cmps _ _ _ _ h _ _ _
macro_rules | `(tactic| ctstep) => `(tactic| with_reducible exact Saber.Leak.M4.CT_POLT2BS_cmp _ _ _ _ _ _)

theorem CT_BS2POLmsg (bytes : List Byte) (bytes' : List Byte) (off : Nat) (data : List (BitVec 16)) (data' : List (BitVec 16)) :
    CT (Saber.Leak.M4.BS2POLmsg bytes off data) (Saber.Leak.M4.BS2POLmsg bytes' off data') := by
  unfold Saber.Leak.M4.BS2POLmsg
  repeat ctstep
macro_rules | `(tactic| ctstep) => `(tactic| with_reducible exact Saber.Leak.M4.CT_BS2POLmsg _ _ _ _ _)

theorem CT_BS2POLp (bytes : List Byte) (bytes' : List Byte) (off : Nat) (data : List (BitVec 16)) (data' : List (BitVec 16)) :
    CT (Saber.Leak.M4.BS2POLp bytes off data) (Saber.Leak.M4.BS2POLp bytes' off data') := by
  unfold Saber.Leak.M4.BS2POLp
  repeat ctstep
macro_rules | `(tactic| ctstep) => `(tactic| with_reducible exact Saber.Leak.M4.CT_BS2POLp _ _ _ _ _)

theorem CT_BS2POLq (bytes : List Byte) (bytes' : List Byte) (off : Nat) (data : List (BitVec 16)) (data' : List (BitVec 16)) :
    CT (Saber.Leak.M4.BS2POLq bytes off data) (Saber.Leak.M4.BS2POLq bytes' off data') := by
  unfold Saber.Leak.M4.BS2POLq
  repeat ctstep
macro_rules | `(tactic| ctstep) => `(tactic| with_reducible exact Saber.Leak.M4.CT_BS2POLq _ _ _ _ _)

theorem CT_BS2POLT (P : PSet) (bytes : List Byte) (bytes' : List Byte) (off : Nat) (data : List (BitVec 16)) (data' : List (BitVec 16)) :
    CT (Saber.Leak.M4.BS2POLT P bytes off data) (Saber.Leak.M4.BS2POLT P bytes' off data') := by
  unfold Saber.Leak.M4.BS2POLT
  cases P <;> repeat ctstep
macro_rules | `(tactic| ctstep) => `(tactic| with_reducible exact Saber.Leak.M4.CT_BS2POLT _ _ _ _ _ _)

theorem CT_POLmu2BS_c (bytes : List Byte) (bytes' : List Byte) (off : Nat) (data : List (BitVec 16)) (data' : List (BitVec 16)) :
    CT (Saber.Leak.M4.POLmu2BS_c bytes off data) (Saber.Leak.M4.POLmu2BS_c bytes' off data') := by
  unfold Saber.Leak.M4.POLmu2BS_c
  repeat ctstep
macro_rules | `(tactic| ctstep) => `(tactic| with_reducible exact Saber.Leak.M4.CT_POLmu2BS_c _ _ _ _ _)

theorem CT_BS2POLmu_c (bytes : List Byte) (bytes' : List Byte) (off : Nat) (data : List (BitVec 16)) (data' : List (BitVec 16)) :
    CT (Saber.Leak.M4.BS2POLmu_c bytes off data) (Saber.Leak.M4.BS2POLmu_c bytes' off data') := by
  unfold Saber.Leak.M4.BS2POLmu_c
  repeat ctstep
macro_rules | `(tactic| ctstep) => `(tactic| with_reducible exact Saber.Leak.M4.CT_BS2POLmu_c _ _ _ _ _)

theorem CT_POLmu2BS (cs : Bool) (bytes bytes' : List Byte) (off : Nat) (data data' : List (BitVec 16)) :
    CT (Saber.Leak.M4.POLmu2BS cs bytes off data) (Saber.Leak.M4.POLmu2BS cs bytes' off data') := by
  unfold Saber.Leak.M4.POLmu2BS
  cases cs
  · exact CT_POLq2BS bytes bytes' off data data'
  · exact CT_POLmu2BS_c bytes bytes' off data data'
macro_rules | `(tactic| ctstep) => `(tactic| with_reducible exact Saber.Leak.M4.CT_POLmu2BS _ _ _ _ _ _)

theorem CT_BS2POLmu (cs : Bool) (bytes bytes' : List Byte) (off : Nat) (data data' : List (BitVec 16)) :
    CT (Saber.Leak.M4.BS2POLmu cs bytes off data) (Saber.Leak.M4.BS2POLmu cs bytes' off data') := by
  unfold Saber.Leak.M4.BS2POLmu
  cases cs
  · exact CT_BS2POLq bytes bytes' off data data'
  · exact CT_BS2POLmu_c bytes bytes' off data data'
macro_rules | `(tactic| ctstep) => `(tactic| with_reducible exact Saber.Leak.M4.CT_BS2POLmu _ _ _ _ _ _)

theorem CT_POLVECmu2BS (P : PSet) (cs : Bool) (bytes : List Byte) (bytes' : List Byte) (off : Nat) (data : List (List (BitVec 16))) (data' : List (List (BitVec 16))) :
    CT (Saber.Leak.M4.POLVECmu2BS P cs bytes off data) (Saber.Leak.M4.POLVECmu2BS P cs bytes' off data') := by
  unfold Saber.Leak.M4.POLVECmu2BS
  repeat ctstep
macro_rules | `(tactic| ctstep) => `(tactic| with_reducible exact Saber.Leak.M4.CT_POLVECmu2BS _ _ _ _ _ _ _)

theorem CT_cmov (r : List Byte) (r' : List Byte) (rOff : Nat) (x : List Byte) (x' : List Byte) (xOff : Nat) (len : Nat) (b : Byte) (b' : Byte) :
    CT (Saber.Leak.M4.cmov r rOff x xOff len b) (Saber.Leak.M4.cmov r' rOff x' xOff len b') := by
  unfold Saber.Leak.M4.cmov
  repeat ctstep
macro_rules | `(tactic| ctstep) => `(tactic| with_reducible exact Saber.Leak.M4.CT_cmov _ _ _ _ _ _ _ _ _)

theorem CT_load_littleendian32 (x : List Byte) (x' : List Byte) (off : Nat) (bytes : Nat) :
    CT (Saber.Leak.M4.load_littleendian32 x off bytes) (Saber.Leak.M4.load_littleendian32 x' off bytes) := by
  unfold Saber.Leak.M4.load_littleendian32
  repeat ctstep
macro_rules | `(tactic| ctstep) => `(tactic| with_reducible exact Saber.Leak.M4.CT_load_littleendian32 _ _ _ _)

theorem CT_cbd (P : PSet) (s : List (BitVec 16)) (s' : List (BitVec 16)) (buf : List Byte) (buf' : List Byte) (off : Nat) :
    CT (Saber.Leak.M4.cbd P s buf off) (Saber.Leak.M4.cbd P s' buf' off) := by
  unfold Saber.Leak.M4.cbd
  cases P <;> repeat ctstep
macro_rules | `(tactic| ctstep) => `(tactic| with_reducible exact Saber.Leak.M4.CT_cbd _ _ _ _ _ _)

theorem CT_shake128_absorb_seed (lib : Fips202Lib) (seed : List Byte) (seed' : List Byte) (off : Nat) :
    CT (Saber.Leak.M4.shake128_absorb_seed lib seed off) (Saber.Leak.M4.shake128_absorb_seed lib seed' off) := by
  unfold Saber.Leak.M4.shake128_absorb_seed
  repeat ctstep
macro_rules | `(tactic| ctstep) => `(tactic| with_reducible exact Saber.Leak.M4.CT_shake128_absorb_seed _ _ _ _)

theorem CT_shake128_squeeze_poly (lib : Fips202Lib) (poly : List (BitVec 16)) (poly' : List (BitVec 16)) (ctx : lib.Ctx) (ctx' : lib.Ctx) :
    CT (Saber.Leak.M4.shake128_squeeze_poly lib poly ctx) (Saber.Leak.M4.shake128_squeeze_poly lib poly' ctx') := by
  unfold Saber.Leak.M4.shake128_squeeze_poly
  repeat ctstep
macro_rules | `(tactic| ctstep) => `(tactic| with_reducible exact Saber.Leak.M4.CT_shake128_squeeze_poly _ _ _ _ _)

theorem CT_shake128_squeeze_secret (P : PSet) (lib : Fips202Lib) (s : List (BitVec 16)) (s' : List (BitVec 16)) (ctx : lib.Ctx) (ctx' : lib.Ctx) :
    CT (Saber.Leak.M4.shake128_squeeze_secret P lib s ctx) (Saber.Leak.M4.shake128_squeeze_secret P lib s' ctx') := by
  unfold Saber.Leak.M4.shake128_squeeze_secret
  repeat ctstep
macro_rules | `(tactic| ctstep) => `(tactic| with_reducible exact Saber.Leak.M4.CT_shake128_squeeze_secret _ _ _ _ _ _)

theorem CT_GenSecret (P : PSet) (lib : Fips202Lib) (cs : Bool) (s : List (List (BitVec 16))) (s' : List (List (BitVec 16))) (seed : List Byte) (seed' : List Byte) (off : Nat) (keypair : Int) :
    CT (Saber.Leak.M4.GenSecret P lib cs s seed off keypair) (Saber.Leak.M4.GenSecret P lib cs s' seed' off keypair) := by
  unfold Saber.Leak.M4.GenSecret
  repeat ctstep
macro_rules | `(tactic| ctstep) => `(tactic| with_reducible exact Saber.Leak.M4.CT_GenSecret _ _ _ _ _ _ _ _ _)

theorem CT_mulAcc (toom : LToom) (toom' : LToom) [ToomCT toom toom'] (first : Bool) (s : List (BitVec 16)) (s' : List (BitVec 16)) (A : List (BitVec 16)) (A' : List (BitVec 16)) (r : List (BitVec 16)) (r' : List (BitVec 16)) :
    CT (Saber.Leak.M4.mulAcc toom first s A r) (Saber.Leak.M4.mulAcc toom' first s' A' r') := by
  unfold Saber.Leak.M4.mulAcc
  repeat ctstep
macro_rules | `(tactic| ctstep) => `(tactic| with_reducible exact Saber.Leak.M4.CT_mulAcc _ _ _ _ _ _ _ _ _)

theorem CT_kpInner (lib : Fips202Lib) (toom : LToom) (toom' : LToom) [ToomCT toom toom'] (i : Nat) (j : Nat) (st : KP lib.Ctx) (st' : KP lib.Ctx) :
    CT (Saber.Leak.M4.kpInner lib toom i j st) (Saber.Leak.M4.kpInner lib toom' i j st') := by
  unfold Saber.Leak.M4.kpInner
  repeat ctstep
macro_rules | `(tactic| ctstep) => `(tactic| with_reducible exact Saber.Leak.M4.CT_kpInner _ _ _ _ _ _ _)

theorem CT_kpOuter (P : PSet) (lib : Fips202Lib) (toom : LToom) (toom' : LToom) [ToomCT toom toom'] (cs : Bool) (i : Nat) (st : KP lib.Ctx) (st' : KP lib.Ctx) :
    CT (Saber.Leak.M4.kpOuter P lib toom cs i st) (Saber.Leak.M4.kpOuter P lib toom' cs i st') := by
  unfold Saber.Leak.M4.kpOuter
  repeat ctstep
macro_rules | `(tactic| ctstep) => `(tactic| with_reducible exact Saber.Leak.M4.CT_kpOuter _ _ _ _ _ _ _ _)

theorem CT_roundPoly (b : List (BitVec 16)) (b' : List (BitVec 16)) :
    CT (Saber.Leak.M4.roundPoly b) (Saber.Leak.M4.roundPoly b') := by
  unfold Saber.Leak.M4.roundPoly
  repeat ctstep
macro_rules | `(tactic| ctstep) => `(tactic| with_reducible exact Saber.Leak.M4.CT_roundPoly _ _)

theorem CT_MatrixVectorMulKeyPair (P : PSet) (lib : Fips202Lib) (toom : LToom) (toom' : LToom) [ToomCT toom toom'] (cs : Bool) (pk : List Byte) (pk' : List Byte) (sk : List Byte) (sk' : List Byte) :
    CT (Saber.Leak.M4.MatrixVectorMulKeyPair P lib toom cs pk sk) (Saber.Leak.M4.MatrixVectorMulKeyPair P lib toom' cs pk' sk') := by
  unfold Saber.Leak.M4.MatrixVectorMulKeyPair
  repeat ctstep
macro_rules | `(tactic| ctstep) => `(tactic| with_reducible exact Saber.Leak.M4.CT_MatrixVectorMulKeyPair _ _ _ _ _ _ _ _ _)

theorem CT_meInner (P : PSet) (lib : Fips202Lib) (toom : LToom) (toom' : LToom) [ToomCT toom toom'] (sp : List (List (BitVec 16))) (sp' : List (List (BitVec 16))) (st : ME lib.Ctx) (st' : ME lib.Ctx) :
    CT (Saber.Leak.M4.meInner P lib toom sp st) (Saber.Leak.M4.meInner P lib toom' sp' st') := by
  unfold Saber.Leak.M4.meInner
  repeat ctstep
macro_rules | `(tactic| ctstep) => `(tactic| with_reducible exact Saber.Leak.M4.CT_meInner _ _ _ _ _ _ _ _)

theorem CT_MatrixVectorMulEnc (P : PSet) (lib : Fips202Lib) (toom : LToom) (toom' : LToom) [ToomCT toom toom'] (ct : List Byte) (ct' : List Byte) (ctOff : Nat) (seed : List Byte) (seed' : List Byte) (off : Nat) (sp : List (List (BitVec 16))) (sp' : List (List (BitVec 16))) :
    CT (Saber.Leak.M4.MatrixVectorMulEnc P lib toom ct ctOff seed off sp) (Saber.Leak.M4.MatrixVectorMulEnc P lib toom' ct' ctOff seed' off sp') := by
  unfold Saber.Leak.M4.MatrixVectorMulEnc
  repeat ctstep
macro_rules | `(tactic| ctstep) => `(tactic| with_reducible exact Saber.Leak.M4.CT_MatrixVectorMulEnc _ _ _ _ _ _ _ _ _ _ _ _)

theorem CT_MatrixVectorMulEnc_cmp (P : PSet) (lib : Fips202Lib) (toom : LToom) (toom' : LToom) [ToomCT toom toom'] (ct : List Byte) (ct' : List Byte) (ctOff : Nat) (seed : List Byte) (seed' : List Byte) (off : Nat) (sp : List (List (BitVec 16))) (sp' : List (List (BitVec 16))) :
    CT (Saber.Leak.M4.MatrixVectorMulEnc_cmp P lib toom ct ctOff seed off sp) (Saber.Leak.M4.MatrixVectorMulEnc_cmp P lib toom' ct' ctOff seed' off sp') := by
  unfold Saber.Leak.M4.MatrixVectorMulEnc_cmp
  repeat ctstep
macro_rules | `(tactic| ctstep) => `(tactic| with_reducible exact Saber.Leak.M4.CT_MatrixVectorMulEnc_cmp _ _ _ _ _ _ _ _ _ _ _ _)

theorem CT_innerProdEncV (P : PSet) (toom : LToom) (toom' : LToom) [ToomCT toom toom'] (pk : List Byte) (pk' : List Byte) (pkOff : Nat) (sp : List (List (BitVec 16))) (sp' : List (List (BitVec 16))) (m : List Byte) (m' : List Byte) (mOff : Nat) :
    CT (Saber.Leak.M4.innerProdEncV P toom pk pkOff sp m mOff) (Saber.Leak.M4.innerProdEncV P toom' pk' pkOff sp' m' mOff) := by
  unfold Saber.Leak.M4.innerProdEncV
  repeat ctstep
macro_rules | `(tactic| ctstep) => `(tactic| with_reducible exact Saber.Leak.M4.CT_innerProdEncV _ _ _ _ _ _ _ _ _ _ _)

theorem CT_InnerProdEnc (P : PSet) (toom : LToom) (toom' : LToom) [ToomCT toom toom'] (ct : List Byte) (ct' : List Byte) (ctOff : Nat) (pk : List Byte) (pk' : List Byte) (pkOff : Nat) (sp : List (List (BitVec 16))) (sp' : List (List (BitVec 16))) (m : List Byte) (m' : List Byte) (mOff : Nat) :
    CT (Saber.Leak.M4.InnerProdEnc P toom ct ctOff pk pkOff sp m mOff) (Saber.Leak.M4.InnerProdEnc P toom' ct' ctOff pk' pkOff sp' m' mOff) := by
  unfold Saber.Leak.M4.InnerProdEnc
  repeat ctstep
macro_rules | `(tactic| ctstep) => `(tactic| with_reducible exact Saber.Leak.M4.CT_InnerProdEnc _ _ _ _ _ _ _ _ _ _ _ _ _ _)

theorem CT_InnerProdEnc_cmp (P : PSet) (toom : LToom) (toom' : LToom) [ToomCT toom toom'] (ct : List Byte) (ct' : List Byte) (ctOff : Nat) (pk : List Byte) (pk' : List Byte) (pkOff : Nat) (sp : List (List (BitVec 16))) (sp' : List (List (BitVec 16))) (m : List Byte) (m' : List Byte) (mOff : Nat) :
    CT (Saber.Leak.M4.InnerProdEnc_cmp P toom ct ctOff pk pkOff sp m mOff) (Saber.Leak.M4.InnerProdEnc_cmp P toom' ct' ctOff pk' pkOff sp' m' mOff) := by
  unfold Saber.Leak.M4.InnerProdEnc_cmp
  repeat ctstep
macro_rules | `(tactic| ctstep) => `(tactic| with_reducible exact Saber.Leak.M4.CT_InnerProdEnc_cmp _ _ _ _ _ _ _ _ _ _ _ _ _ _)

theorem CT_InnerProdDec (P : PSet) (toom : LToom) (toom' : LToom) [ToomCT toom toom'] (cs : Bool) (m : List Byte) (m' : List Byte) (ct : List Byte) (ct' : List Byte) (sk : List Byte) (sk' : List Byte) :
    CT (Saber.Leak.M4.InnerProdDec P toom cs m ct sk) (Saber.Leak.M4.InnerProdDec P toom' cs m' ct' sk') := by
  unfold Saber.Leak.M4.InnerProdDec
  repeat ctstep
macro_rules | `(tactic| ctstep) => `(tactic| with_reducible exact Saber.Leak.M4.CT_InnerProdDec _ _ _ _ _ _ _ _ _ _)

theorem CT_indcpa_kem_keypair {σ τ : Type} (P : PSet) (lib : Fips202Lib) (toom : LToom) (toom' : LToom) [ToomCT toom toom'] (cs : Bool) (rb : RandomBytes σ) (rb' : RandomBytes τ) (pk : List Byte) (pk' : List Byte) (sk : List Byte) (sk' : List Byte) (st : σ) (st' : τ) :
    CT (Saber.Leak.M4.indcpa_kem_keypair P lib toom cs rb pk sk st) (Saber.Leak.M4.indcpa_kem_keypair P lib toom' cs rb' pk' sk' st') := by
  unfold Saber.Leak.M4.indcpa_kem_keypair
  repeat ctstep
macro_rules | `(tactic| ctstep) => `(tactic| with_reducible exact Saber.Leak.M4.CT_indcpa_kem_keypair _ _ _ _ _ _ _ _ _ _ _ _ _)

theorem CT_indcpa_kem_enc (P : PSet) (lib : Fips202Lib) (toom : LToom) (toom' : LToom) [ToomCT toom toom'] (cs : Bool) (m : List Byte) (m' : List Byte) (mOff : Nat) (seed_sp : List Byte) (seed_sp' : List Byte) (seedOff : Nat) (pk : List Byte) (pk' : List Byte) (pkOff : Nat) (ciphertext : List Byte) (ciphertext' : List Byte) :
    CT (Saber.Leak.M4.indcpa_kem_enc P lib toom cs m mOff seed_sp seedOff pk pkOff ciphertext) (Saber.Leak.M4.indcpa_kem_enc P lib toom' cs m' mOff seed_sp' seedOff pk' pkOff ciphertext') := by
  unfold Saber.Leak.M4.indcpa_kem_enc
  repeat ctstep
macro_rules | `(tactic| ctstep) => `(tactic| with_reducible exact Saber.Leak.M4.CT_indcpa_kem_enc _ _ _ _ _ _ _ _ _ _ _ _ _ _ _ _)

theorem CT_indcpa_kem_enc_cmp (P : PSet) (lib : Fips202Lib) (toom : LToom) (toom' : LToom) [ToomCT toom toom'] (cs : Bool) (m : List Byte) (m' : List Byte) (mOff : Nat) (seed_sp : List Byte) (seed_sp' : List Byte) (seedOff : Nat) (pk : List Byte) (pk' : List Byte) (pkOff : Nat) (ciphertext : List Byte) (ciphertext' : List Byte) :
    CT (Saber.Leak.M4.indcpa_kem_enc_cmp P lib toom cs m mOff seed_sp seedOff pk pkOff ciphertext) (Saber.Leak.M4.indcpa_kem_enc_cmp P lib toom' cs m' mOff seed_sp' seedOff pk' pkOff ciphertext') := by
  unfold Saber.Leak.M4.indcpa_kem_enc_cmp
  repeat ctstep
macro_rules | `(tactic| ctstep) => `(tactic| with_reducible exact Saber.Leak.M4.CT_indcpa_kem_enc_cmp _ _ _ _ _ _ _ _ _ _ _ _ _ _ _ _)

theorem CT_indcpa_kem_dec (P : PSet) (toom : LToom) (toom' : LToom) [ToomCT toom toom'] (cs : Bool) (sk : List Byte) (sk' : List Byte) (ciphertext : List Byte) (ciphertext' : List Byte) (m : List Byte) (m' : List Byte) :
    CT (Saber.Leak.M4.indcpa_kem_dec P toom cs sk ciphertext m) (Saber.Leak.M4.indcpa_kem_dec P toom' cs sk' ciphertext' m') := by
  unfold Saber.Leak.M4.indcpa_kem_dec
  repeat ctstep
macro_rules | `(tactic| ctstep) => `(tactic| with_reducible exact Saber.Leak.M4.CT_indcpa_kem_dec _ _ _ _ _ _ _ _ _ _)

theorem CT_crypto_kem_keypair {σ τ : Type} (P : PSet) (lib : Fips202Lib) (toom : LToom) (toom' : LToom) [ToomCT toom toom'] (cs : Bool) (rb : RandomBytes σ) (rb' : RandomBytes τ) (pk : List Byte) (pk' : List Byte) (sk : List Byte) (sk' : List Byte) (st : σ) (st' : τ) :
    CT (Saber.Leak.M4.crypto_kem_keypair P lib toom cs rb pk sk st) (Saber.Leak.M4.crypto_kem_keypair P lib toom' cs rb' pk' sk' st') := by
  unfold Saber.Leak.M4.crypto_kem_keypair
  repeat ctstep
macro_rules | `(tactic| ctstep) => `(tactic| with_reducible exact Saber.Leak.M4.CT_crypto_kem_keypair _ _ _ _ _ _ _ _ _ _ _ _ _)

theorem CT_crypto_kem_enc {σ τ : Type} (P : PSet) (lib : Fips202Lib) (toom : LToom) (toom' : LToom) [ToomCT toom toom'] (cs : Bool) (rb : RandomBytes σ) (rb' : RandomBytes τ) (c : List Byte) (c' : List Byte) (k : List Byte) (k' : List Byte) (pk : List Byte) (pk' : List Byte) (st : σ) (st' : τ) :
    CT (Saber.Leak.M4.crypto_kem_enc P lib toom cs rb c k pk st) (Saber.Leak.M4.crypto_kem_enc P lib toom' cs rb' c' k' pk' st') := by
  unfold Saber.Leak.M4.crypto_kem_enc
  repeat ctstep
macro_rules | `(tactic| ctstep) => `(tactic| with_reducible exact Saber.Leak.M4.CT_crypto_kem_enc _ _ _ _ _ _ _ _ _ _ _ _ _ _ _)

theorem CT_crypto_kem_dec (P : PSet) (lib : Fips202Lib) (toom : LToom) (toom' : LToom) [ToomCT toom toom'] (cs : Bool) (k : List Byte) (k' : List Byte) (c : List Byte) (c' : List Byte) (sk : List Byte) (sk' : List Byte) :
    CT (Saber.Leak.M4.crypto_kem_dec P lib toom cs k c sk) (Saber.Leak.M4.crypto_kem_dec P lib toom' cs k' c' sk') := by
  unfold Saber.Leak.M4.crypto_kem_dec
  repeat ctstep
macro_rules | `(tactic| ctstep) => `(tactic| with_reducible exact Saber.Leak.M4.CT_crypto_kem_dec _ _ _ _ _ _ _ _ _ _ _)

end Saber.Leak.M4
