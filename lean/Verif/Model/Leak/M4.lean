import Verif.Model.M4.Kem
import Verif.Model.Leak.Ref
/-!
# The Cortex-M4 implementation with events

Generated by `tools/leakgen.py` from Model/M4/PolyMul.lean, Model/M4/Pack.lean, Model/M4/Cbd.lean, Model/M4/Poly.lean, Model/M4/Kem.lean: the same code over the operations of `Model/Leak/Monad.lean`.  The erasure theorems in
`Proof/Leak` say that leaving out the events gives the model.  A condition that is fixed by the build configuration has no event.
-/
namespace Saber.Leak.M4
open Saber.M4


/-- `toom_cook_4way_*` with events; compare `Saber.M4.Toom`. -/
abbrev LToom := List (BitVec 16) → List (BitVec 16) → List (BitVec 16) → LM (List (BitVec 16) × List (BitVec 16))
/-- `kara_strd_mem_asm` with events; compare `Saber.M4.Kara`. -/
abbrev LKara := K4 → LM K4

/-- `&a[off]` passed as an array of 64 elements; no access. -/
def sub64 (a : List (BitVec 16)) (off : Nat) : LM (List (BitVec 16)) := lift (Saber.M4.sub64 a off)

/-- `fail |= out[0] ^ v0; ...`; compare `Saber.M4.cmps`. -/
def cmps (fail : BitVec 32) (bytes : List Byte) (off : Nat) : List Byte → LM (BitVec 32)
  | [] => pure fail
  | v :: vs => do
    let x ← rd bytes off
    cmps (fail ||| (x ^^^ v).setWidth 32) bytes (off + 1) vs

/-- Calls of the hash library (`Saber.M4.Fips202Lib`); what the library itself does is not observed. -/
def lib_shake128 (lib : Fips202Lib) (out : List Byte) (outOff outlen : Nat) (inp : List Byte) (inOff inlen : Nat) : LM (List Byte) :=
  ⟨[.call "shake128" [outOff, outlen, inOff, inlen]], lib.shake128 out outOff outlen inp inOff inlen⟩
/-- see `lib_shake128` -/
def lib_sha3_256 (lib : Fips202Lib) (out : List Byte) (outOff : Nat) (inp : List Byte) (inOff inlen : Nat) : LM (List Byte) :=
  ⟨[.call "sha3_256" [outOff, inOff, inlen]], lib.sha3_256 out outOff inp inOff inlen⟩
/-- see `lib_shake128` -/
def lib_sha3_512 (lib : Fips202Lib) (out : List Byte) (outOff : Nat) (inp : List Byte) (inOff inlen : Nat) : LM (List Byte) :=
  ⟨[.call "sha3_512" [outOff, inOff, inlen]], lib.sha3_512 out outOff inp inOff inlen⟩
/-- see `lib_shake128` -/
def lib_inc_init (lib : Fips202Lib) : LM lib.Ctx := ⟨[.call "shake128_inc_init" []], lib.inc_init⟩
/-- see `lib_shake128` -/
def lib_inc_absorb (lib : Fips202Lib) (ctx : lib.Ctx) (inp : List Byte) (inOff inlen : Nat) : LM lib.Ctx :=
  ⟨[.call "shake128_inc_absorb" [inOff, inlen]], lib.inc_absorb ctx inp inOff inlen⟩
/-- see `lib_shake128` -/
def lib_inc_finalize (lib : Fips202Lib) (ctx : lib.Ctx) : LM lib.Ctx := ⟨[.call "shake128_inc_finalize" []], lib.inc_finalize ctx⟩
/-- see `lib_shake128` -/
def lib_inc_squeeze (lib : Fips202Lib) (out : List Byte) (outOff outlen : Nat) (ctx : lib.Ctx) : LM (List Byte × lib.Ctx) :=
  ⟨[.call "shake128_inc_squeeze" [outOff, outlen]], lib.inc_squeeze out outOff outlen ctx⟩

/-! ## M4/PolyMul -/

/-- `poly_mul` (lines 12-29, and m4-tc4kara/poly_mul.c:5-19). -/
def poly_mul (toom : LToom) (a b res : List (BitVec 16)) : LM (List (BitVec 16) × List (BitVec 16)) := do
  let res ← memset res 0 0 N
  toom a b res

/-- `poly_mul_acc` (lines 31-45, and m4-tc4kara/poly_mul.c:21-33). -/
def poly_mul_acc (toom : LToom) (a b res : List (BitVec 16)) : LM (List (BitVec 16) × List (BitVec 16)) :=
  toom a b res

/-- Evaluation of four consecutive coefficients at the seven points (lines 61-77 for `a`, 80-96 for `b`): `r0 .. r3` to
`w1` = `r3`, `w2` at 2, `w3` at 1, `w4` at -1, `w5`, `w6` at 1/2 and -1/2 (scaled), `w7` = `r0`. -/
def evalPt (r0 r1 r2 r3 : BitVec 16) : LM (Ev (BitVec 16)) := do
  let r4 := u16 (← iadd (prom r0) (prom r2))
  let r5 := u16 (← iadd (prom r1) (prom r3))
  let r6 := u16 (← iadd (prom r4) (prom r5))
  let r7 := u16 (← isub (prom r4) (prom r5))
  let w3 := r6
  let w4 := r7
  let r4 := u16 (← ishl (← iadd (← ishl (prom r0) 2) (prom r2)) 1)
  let r5 := u16 (← iadd (← ishl (prom r1) 2) (prom r3))
  let r6 := u16 (← iadd (prom r4) (prom r5))
  let r7 := u16 (← isub (prom r4) (prom r5))
  let w5 := r6
  let w6 := r7
  let r4 := u16 (← iadd (← iadd (← iadd (← ishl (prom r3) 3) (← ishl (prom r2) 2)) (← ishl (prom r1) 1)) (prom r0))
  pure { w1 := r3, w2 := r4, w3 := w3, w4 := w4, w5 := w5, w6 := w6, w7 := r0 }

/-- First evaluation loop (lines 60-78); `stack` has 13*64 elements. -/
def evalA (a stack : List (BitVec 16)) : LM (List (BitVec 16)) :=
  loop 64 stack fun j stack => do
    let r0 ← rd a (4 * j)
    let r1 ← rd a (4 * j + 1)
    let r2 ← rd a (4 * j + 2)
    let r3 ← rd a (4 * j + 3)
    let e ← evalPt r0 r1 r2 r3
    let stack ← wr stack (2 * 64 + j) e.w3
    let stack ← wr stack (3 * 64 + j) e.w4
    let stack ← wr stack (4 * 64 + j) e.w5
    let stack ← wr stack (5 * 64 + j) e.w6
    let stack ← wr stack (64 + j) e.w2
    let stack ← wr stack (6 * 64 + j) e.w7
    wr stack j e.w1

/-- Second evaluation loop (lines 79-97): `b` is overwritten with the coefficients `b[4j+3]`. -/
def evalB (b stack : List (BitVec 16)) : LM (List (BitVec 16) × List (BitVec 16)) :=
  loop 64 (b, stack) fun j (b, stack) => do
    let r0 ← rd b (4 * j)
    let r1 ← rd b (4 * j + 1)
    let r2 ← rd b (4 * j + 2)
    let r3 ← rd b (4 * j + 3)
    let e ← evalPt r0 r1 r2 r3
    let stack ← wr stack (8 * 64 + j) e.w3
    let stack ← wr stack (9 * 64 + j) e.w4
    let stack ← wr stack (10 * 64 + j) e.w5
    let stack ← wr stack (11 * 64 + j) e.w6
    let stack ← wr stack (7 * 64 + j) e.w2
    let stack ← wr stack (12 * 64 + j) e.w7
    let b ← wr b j e.w1
    pure (b, stack)

/-- Line 100: `kara_strd_mem_asm(stack,b,&b[64], &b[128])`. -/
def mul1 (kara : LKara) (b stack : List (BitVec 16)) : LM (List (BitVec 16) × List (BitVec 16)) := do
  let r ← kara ⟨← sub64 stack 0, ← sub64 b 0, ← sub64 b 64, ← sub64 b 128⟩
  pure (writeAt (writeAt (writeAt b 0 r.b) 64 r.res) 128 r.tmp, writeAt stack 0 r.a)

/-- Line 101: `kara_strd_mem_asm(&stack[64],&stack[7*64],b   , &b[128])`. -/
def mul2 (kara : LKara) (b stack : List (BitVec 16)) : LM (List (BitVec 16) × List (BitVec 16)) := do
  let r ← kara ⟨← sub64 stack 64, ← sub64 stack (7 * 64), ← sub64 b 0, ← sub64 b 128⟩
  pure (writeAt (writeAt b 0 r.res) 128 r.tmp, writeAt (writeAt stack 64 r.a) (7 * 64) r.b)

/-- Lines 102-106: `kara_strd_mem_asm(&stack[k*64],&stack[(k+6)*64],&stack[(k+5)*64] , &b[128])` for `k = 2..6`. -/
def mulK (kara : LKara) (k : Nat) (b stack : List (BitVec 16)) : LM (List (BitVec 16) × List (BitVec 16)) := do
  let r ← kara ⟨← sub64 stack (k * 64), ← sub64 stack ((k + 6) * 64), ← sub64 stack ((k + 5) * 64), ← sub64 b 128⟩
  pure (writeAt b 128 r.tmp, writeAt (writeAt (writeAt stack (k * 64) r.a) ((k + 6) * 64) r.b) ((k + 5) * 64) r.res)

/-- `(uint16_t)((t * inv) >> k)` with a signed `t` and an `int` constant `inv` (lines 134, 136, 138). -/
def mulShiftI (m : Arith) (t inv : Int) (k : Nat) : LM (BitVec 16) :=
  match m with
  | .strict => do
    let p ← imul t inv
    pure (u16 (isar p k))
  | .wrap => pure (u16 (isar (BitVec.ofInt 32 (t * inv)).toInt k))

/-- The arithmetic of an interpolation step (lines 123-140). Result: `r6, r5, r4, r3, r2, r1, r0`. -/
def interp (m : Arith) (r0 r1 r2 r3 r4 r5 r6 : BitVec 16) : LM (Ev (BitVec 16)) := do
  let r1 := u16 (← iadd (prom r1) (prom r4))
  let r5 := u16 (← isub (prom r5) (prom r4))
  let r3 := u16 (isar (← isub (prom r3) (prom r2)) 1)
  let r4 := u16 (← isub (prom r4) (prom r0))
  let r4 := u16 (← isub (prom r4) (← ishl (prom r6) 6))
  let r4 := u16 (← iadd (← ishl (prom r4) 1) (prom r5))
  let r2 := u16 (← iadd (prom r2) (prom r3))
  let r1 := u16 (← isub (← isub (prom r1) (← ishl (prom r2) 6)) (prom r2))
  let r2 := u16 (← isub (prom r2) (prom r6))
  let r2 := u16 (← isub (prom r2) (prom r0))
  let r1 := u16 (← iadd (prom r1) (← imul 45 (prom r2)))
  let r4 ← mulShiftI m (← isub (prom r4) (← ishl (prom r2) 3)) 43691 3
  let r5 := u16 (← iadd (prom r5) (prom r1))
  let r1 ← mulShiftI m (← iadd (prom r1) (← ishl (prom r3) 4)) 36409 1
  let r3 := u16 (← isub 0 (← iadd (prom r3) (prom r1)))
  let r5 ← mulShiftI m (← isub (← imul 30 (prom r1)) (prom r5)) 61167 2
  let r2 := u16 (← isub (prom r2) (prom r4))
  let r1 := u16 (← isub (prom r1) (prom r5))
  pure { w1 := r6, w2 := r5, w3 := r4, w4 := r3, w5 := r2, w6 := r1, w7 := r0 }

/-- One iteration of the interpolation loop (lines 109-152); `res[..] += r6+r9` adds modulo `2^16`. -/
def interpStep (m : Arith) (b stack : List (BitVec 16)) (i : Nat) (s : IS) : LM IS := do
  let r7 := s.r0
  let r8 := s.r1
  let r9 := s.r2
  let r0 ← rd b (64 + i)
  let r1 ← rd b i
  let r2 ← rd stack (7 * 64 + i)
  let r3 ← rd stack (8 * 64 + i)
  let r4 ← rd stack (9 * 64 + i)
  let r5 ← rd stack (10 * 64 + i)
  let r6 ← rd stack (11 * 64 + i)
  let o ← interp m r0 r1 r2 r3 r4 r5 r6
  let res ← addTo s.res (3 + 4 * i) o.w4
  branch (decide (i = 0))
  let res ← addTo res (0 + 4 * i) (if i = 0 then o.w1 else o.w1 + r9)
  let res ← addTo res (1 + 4 * i) (if i = 0 then o.w2 else o.w2 + r8)
  let res ← addTo res (2 + 4 * i) (if i = 0 then o.w3 else o.w3 + r7)
  pure ⟨res, o.w7, o.w6, o.w5⟩

/-- The evaluation loops and the seven multiplications of `toom_cook_4way_striding` (lines 49-106).  Returns `b` and `stack`. -/
def strdProds (kara : LKara) (a b : List (BitVec 16)) : LM (List (BitVec 16) × List (BitVec 16)) := do
  let stack ← evalA a (uninit 16 120 (13 * 64))
  let (b, stack) ← evalB b stack
  let (b, stack) ← mul1 kara b stack
  let (b, stack) ← mul2 kara b stack
  let (b, stack) ← mulK kara 2 b stack
  let (b, stack) ← mulK kara 3 b stack
  let (b, stack) ← mulK kara 4 b stack
  let (b, stack) ← mulK kara 5 b stack
  mulK kara 6 b stack

/-- `toom_cook_4way_striding` (lines 47-156).  Before the interpolation loop `r0`, `r1`, `r2` hold the coefficients `b[252]`, `b[253]`,
`b[254]` of the last evaluation step; the first iteration copies them to `r7`, `r8`, `r9` without using them.
They are modelled as unspecified values. -/
def toom_cook_4way_striding (m : Arith) (kara : LKara) : LToom := fun a b res => do
  let (b, stack) ← strdProds kara a b
  let s ← loop 64 (⟨res, junk 16 121 0, junk 16 121 1, junk 16 121 2⟩ : IS) (interpStep m b stack)
  let x ← rd s.res 0
  let res ← wr s.res 0 (x - s.r2)
  let x ← rd res 1
  let res ← wr res 1 (x - s.r1)
  let x ← rd res 2
  let res ← wr res 2 (x - s.r0)
  pure (b, res)

/-! ## M4/Pack -/

/-- Body of the inner loop of `POLmsg2BS` (pack_unpack.c:14-19): the value of `byte` after the loop. -/
def msgByte (data : List (BitVec 16)) (j : Nat) : LM Byte :=
  loop 8 (0 : Byte) fun i byte => do
    let d ← rdN data (j * 8 + i)
    pure (n8 (byte.toNat ||| ((d &&& 0x01) <<< i)))

/-- `POLmsg2BS` (pack_unpack.c:10-21) -/
def POLmsg2BS (bytes : List Byte) (off : Nat) (data : List (BitVec 16)) : LM (List Byte) :=
  loop KEYBYTES bytes fun j bytes => do
    let byte ← msgByte data j
    wr bytes (off + j) byte

/-- `POLp2BS` (pack_unpack.c:24-38) -/
def POLp2BS (bytes : List Byte) (off : Nat) (data : List (BitVec 16)) : LM (List Byte) :=
  loop (N / 4) bytes fun i bytes => do
    let d0 ← rdN data (4 * i + 0)
    let d1 ← rdN data (4 * i + 1)
    let d2 ← rdN data (4 * i + 2)
    let d3 ← rdN data (4 * i + 3)
    wrs bytes (off + 5 * i) (Saber.M4.POLp2BSBlk d0 d1 d2 d3)

/-- `POLp2BS_cmp` (pack_unpack.c:41-58) -/
def POLp2BS_cmp (bytes : List Byte) (off : Nat) (data : List (BitVec 16)) : LM (BitVec 32) :=
  loop (N / 4) (0 : BitVec 32) fun j fail => do
    let d0 ← rdN data (4 * j + 0)
    let d1 ← rdN data (4 * j + 1)
    let d2 ← rdN data (4 * j + 2)
    let d3 ← rdN data (4 * j + 3)
    cmps fail bytes (off + 5 * j) (Saber.M4.POLp2BSBlk d0 d1 d2 d3)

/-- `POLq2BS` (pack_unpack.c:61-83) -/
def POLq2BS (bytes : List Byte) (off : Nat) (data : List (BitVec 16)) : LM (List Byte) :=
  loop (N / 8) bytes fun i bytes => do
    let d0 ← rdN data (8 * i + 0)
    let d1 ← rdN data (8 * i + 1)
    let d2 ← rdN data (8 * i + 2)
    let d3 ← rdN data (8 * i + 3)
    let d4 ← rdN data (8 * i + 4)
    let d5 ← rdN data (8 * i + 5)
    let d6 ← rdN data (8 * i + 6)
    let d7 ← rdN data (8 * i + 7)
    wrs bytes (off + 13 * i) (Saber.M4.POLq2BSBlk d0 d1 d2 d3 d4 d5 d6 d7)

/-- The block of `POLT2BS` and `POLT2BS_cmp` read at index `j`; number of coefficients and bytes of a block depend on `SABER_ET`. -/
def blkT (P : PSet) (data : List (BitVec 16)) (j : Nat) : LM (List Byte) :=
  match P with
  | .light => do
    let d0 ← rdN data (8 * j + 0)
    let d1 ← rdN data (8 * j + 1)
    let d2 ← rdN data (8 * j + 2)
    let d3 ← rdN data (8 * j + 3)
    let d4 ← rdN data (8 * j + 4)
    let d5 ← rdN data (8 * j + 5)
    let d6 ← rdN data (8 * j + 6)
    let d7 ← rdN data (8 * j + 7)
    pure (Saber.M4.POLT2BS_3Blk d0 d1 d2 d3 d4 d5 d6 d7)
  | .saber => do
    let d0 ← rdN data (2 * j + 0)
    let d1 ← rdN data (2 * j + 1)
    pure (Saber.M4.POLT2BS_4Blk d0 d1)
  | .fire => do
    let d0 ← rdN data (4 * j + 0)
    let d1 ← rdN data (4 * j + 1)
    let d2 ← rdN data (4 * j + 2)
    let d3 ← rdN data (4 * j + 3)
    pure (Saber.M4.POLT2BS_6Blk d0 d1 d2 d3)

/-- `POLT2BS` (pack_unpack.c:87-117) -/
def POLT2BS (P : PSet) (bytes : List Byte) (off : Nat) (data : List (BitVec 16)) : LM (List Byte) :=
  loop (blkTCount P) bytes fun j bytes => do
    let vs ← blkT P data j
    wrs bytes (off + blkTBytes P * j) vs

/-- `POLT2BS_cmp` (pack_unpack.c:120-152) -/
def POLT2BS_cmp (P : PSet) (bytes : List Byte) (off : Nat) (data : List (BitVec 16)) : LM (BitVec 32) :=
  loop (blkTCount P) (0 : BitVec 32) fun j fail => do
    let vs ← blkT P data j
    cmps fail bytes (off + blkTBytes P * j) vs

/-- `BS2POLmsg` (pack_unpack.c:159-169) -/
def BS2POLmsg (bytes : List Byte) (off : Nat) (data : List (BitVec 16)) : LM (List (BitVec 16)) :=
  loop KEYBYTES data fun j data => do
    let byte ← rdN bytes (off + j)
    loop 8 data fun i data => wr data (j * 8 + i) (n16 (byte >>> i))

/-- `BS2POLp` (pack_unpack.c:172-186) -/
def BS2POLp (bytes : List Byte) (off : Nat) (data : List (BitVec 16)) : LM (List (BitVec 16)) :=
  loop (N / 4) data fun j data => do
    let b0 ← rdN bytes (off + 5 * j + 0)
    let b1 ← rdN bytes (off + 5 * j + 1)
    let b2 ← rdN bytes (off + 5 * j + 2)
    let b3 ← rdN bytes (off + 5 * j + 3)
    let b4 ← rdN bytes (off + 5 * j + 4)
    wrs data (4 * j) (Saber.M4.BS2POLpBlk b0 b1 b2 b3 b4)

/-- `BS2POLq` (pack_unpack.c:189-207) -/
def BS2POLq (bytes : List Byte) (off : Nat) (data : List (BitVec 16)) : LM (List (BitVec 16)) :=
  loop (N / 8) data fun i data => do
    let b0 ← rdN bytes (off + 13 * i + 0)
    let b1 ← rdN bytes (off + 13 * i + 1)
    let b2 ← rdN bytes (off + 13 * i + 2)
    let b3 ← rdN bytes (off + 13 * i + 3)
    let b4 ← rdN bytes (off + 13 * i + 4)
    let b5 ← rdN bytes (off + 13 * i + 5)
    let b6 ← rdN bytes (off + 13 * i + 6)
    let b7 ← rdN bytes (off + 13 * i + 7)
    let b8 ← rdN bytes (off + 13 * i + 8)
    let b9 ← rdN bytes (off + 13 * i + 9)
    let b10 ← rdN bytes (off + 13 * i + 10)
    let b11 ← rdN bytes (off + 13 * i + 11)
    let b12 ← rdN bytes (off + 13 * i + 12)
    wrs data (8 * i) (Saber.M4.BS2POLqBlk b0 b1 b2 b3 b4 b5 b6 b7 b8 b9 b10 b11 b12)

/-- `BS2POLT` (pack_unpack.c:210-247) -/
def BS2POLT (P : PSet) (bytes : List Byte) (off : Nat) (data : List (BitVec 16)) : LM (List (BitVec 16)) :=
  match P with
  | .light => loop (N / 8) data fun j data => do
    let b0 ← rdN bytes (off + 3 * j + 0)
    let b1 ← rdN bytes (off + 3 * j + 1)
    let b2 ← rdN bytes (off + 3 * j + 2)
    wrs data (8 * j) (Saber.M4.BS2POLT_3Blk b0 b1 b2)
  | .saber => loop (N / 2) data fun j data => do
    let b0 ← rdN bytes (off + 1 * j + 0)
    wrs data (2 * j) (Saber.M4.BS2POLT_4Blk b0)
  | .fire => loop (N / 4) data fun j data => do
    let b0 ← rdN bytes (off + 3 * j + 0)
    let b1 ← rdN bytes (off + 3 * j + 1)
    let b2 ← rdN bytes (off + 3 * j + 2)
    wrs data (4 * j) (Saber.M4.BS2POLT_6Blk b0 b1 b2)

/-- The compressed `POLmu2BS` (pack_unpack.c:316-326). -/
def POLmu2BS_c (bytes : List Byte) (off : Nat) (data : List (BitVec 16)) : LM (List Byte) :=
  loop (N / 2) bytes fun j bytes => do
    let d0 ← rdN data (2 * j + 0)
    let d1 ← rdN data (2 * j + 1)
    wrs bytes (off + 1 * j) [n8 ((d0 &&& 0x0f) ||| (d1 <<< 4))]

/-- The compressed `BS2POLmu` (pack_unpack.c:329-347). -/
def BS2POLmu_c (bytes : List Byte) (off : Nat) (data : List (BitVec 16)) : LM (List (BitVec 16)) :=
  loop (N / 2) data fun j data => do
    let b ← rdN bytes (off + 1 * j)
    wrs data (2 * j) [u16 (bits4 (b &&& 0xf)), u16 (bits4 ((b >>> 4) &&& 0xf))]

/-- `POLmu2BS`: with `SABER_COMPRESS_SECRETKEY` the function above, otherwise `#define POLmu2BS POLq2BS` (pack_unpack.h:36). -/
def POLmu2BS (cs : Bool) : List Byte → Nat → List (BitVec 16) → LM (List Byte) := if cs then POLmu2BS_c else POLq2BS

/-- `BS2POLmu`: with `SABER_COMPRESS_SECRETKEY` the function above, otherwise `#define BS2POLmu BS2POLq` (pack_unpack.h:37). -/
def BS2POLmu (cs : Bool) : List Byte → Nat → List (BitVec 16) → LM (List (BitVec 16)) := if cs then BS2POLmu_c else BS2POLq

/-- `POLVECmu2BS` (pack_unpack.c:349-355, or `POLVECq2BS`, pack_unpack.c:279-287). -/
def POLVECmu2BS (P : PSet) (cs : Bool) (bytes : List Byte) (off : Nat) (data : List (List (BitVec 16))) : LM (List Byte) :=
  loop P.L bytes fun i bytes => do
    let row ← rd data i
    POLmu2BS cs bytes (off + i * POLYSECRETBYTES cs) row

/-- `cmov` (verify.c:4-12) -/
def cmov (r : List Byte) (rOff : Nat) (x : List Byte) (xOff len : Nat) (b : Byte) : LM (List Byte) :=
  let b := BitVec.ofInt 8 (-(prom b))
  loop len r fun i r => do
    let xi ← rd x (xOff + i)
    let ri ← rd r (rOff + i)
    wr r (rOff + i) (ri ^^^ (b &&& (xi ^^^ ri)))

/-! ## M4/Cbd -/

/-- `load_littleendian` for `SABER_MU == 6` and `8` (cbd.c:14-22): all in `uint32_t`. -/
def load_littleendian32 (x : List Byte) (off bytes : Nat) : LM (BitVec 32) := do
  let x0 ← rd x off
  loop (bytes - 1) (x0.setWidth 32) fun i r => do
    let v ← rd x (off + (i + 1))
    pure (r ||| (v.setWidth 32 <<< (8 * (i + 1))))

/-- `cbd` (cbd.c:26-106); `load_littleendian` for `SABER_MU == 10` (cbd.c:4-12) is the function of the reference implementation. -/
def cbd (P : PSet) (s : List (BitVec 16)) (buf : List Byte) (off : Nat) : LM (List (BitVec 16)) :=
  match P with
  | .fire => loop (N / 4) s fun i s => do
    let t ← load_littleendian32 buf (off + 3 * i) 3
    wrs s (4 * i) (cbdBlk6 t)
  | .saber => loop (N / 4) s fun i s => do
    let t ← load_littleendian32 buf (off + 4 * i) 4
    wrs s (4 * i) (cbdBlk8 t)
  | .light => loop (N / 4) s fun i s => do
    let t ← load_littleendian buf (off + 5 * i) 5
    wrs s (4 * i) (cbdBlk10 t)

/-! ## M4/Poly -/

section Vars

variable (P : PSet) (lib : Fips202Lib) (toom : LToom) (cs : Bool)

/-- `shake128_absorb_seed` (poly.c:11-18) -/
def shake128_absorb_seed (seed : List Byte) (off : Nat) : LM lib.Ctx := do
  let ctx ← lib_inc_init lib
  let ctx ← lib_inc_absorb lib ctx seed off SEEDBYTES
  lib_inc_finalize lib ctx

/-- `shake128_squeeze_poly` (poly.c:21-27) -/
def shake128_squeeze_poly (poly : List (BitVec 16)) (ctx : lib.Ctx) : LM (List (BitVec 16) × lib.Ctx) := do
  let (shake_out, ctx) ← lib_inc_squeeze lib (uninit 8 130 POLYBYTES) 0 POLYBYTES ctx
  let poly ← BS2POLq shake_out 0 poly
  pure (poly, ctx)

/-- `shake128_squeeze_secret` (poly.c:30-36) -/
def shake128_squeeze_secret (s : List (BitVec 16)) (ctx : lib.Ctx) : LM (List (BitVec 16) × lib.Ctx) := do
  let (shake_out, ctx) ← lib_inc_squeeze lib (uninit 8 131 P.POLYCOINBYTES) 0 P.POLYCOINBYTES ctx
  let s ← cbd P s shake_out 0
  pure (s, ctx)

/-- `GenSecret` (poly.c:38-52); `seed_s` points to `seed[off]`.  Returns `s` and the object of `seed_s`, which is overwritten if
`keypair` is set (all calls in this code pass 0). -/
def GenSecret (s : List (List (BitVec 16))) (seed : List Byte) (off : Nat) (keypair : Int) :
    LM (List (List (BitVec 16)) × List Byte) := do
  let shake_out ← lib_shake128 lib (uninit 8 132 (P.L * P.POLYCOINBYTES)) 0 (P.L * P.POLYCOINBYTES) seed off NOISE_SEEDBYTES
  let s ← loop P.L s fun i s => do
    let si ← rd s i
    let si ← cbd P si shake_out (i * P.POLYCOINBYTES)
    wr s i si
  branch (decide (keypair ≠ 0))
  if keypair ≠ 0 then do
    let seed ← POLVECmu2BS P cs seed off s
    pure (s, seed)
  else pure (s, seed)

/-- `if (first) poly_mul(s, A, r) else poly_mul_acc(s, A, r)` (poly.c:77-81, 123-127, 164-168, 201-205). -/
def mulAcc (first : Bool) (s A r : List (BitVec 16)) : LM (List (BitVec 16) × List (BitVec 16)) :=
  do
  branch first
  if first then poly_mul toom s A r else poly_mul_acc toom s A r

/-- Body of the inner loop (poly.c:73-82). -/
def kpInner (i j : Nat) (st : KP lib.Ctx) : LM (KP lib.Ctx) := do
  let (A, cA) ← shake128_squeeze_poly lib st.A st.cA
  let bj ← rd st.b j
  let (A, bj) ← mulAcc toom (i == 0) st.s A bj
  let b ← wr st.b j bj
  pure { st with A := A, b := b, cA := cA }

/-- Body of the outer loop (poly.c:68-83). -/
def kpOuter (i : Nat) (st : KP lib.Ctx) : LM (KP lib.Ctx) := do
  let (s, cS) ← shake128_squeeze_secret P lib st.s st.cS
  let sk ← POLmu2BS cs st.sk (i * POLYSECRETBYTES cs) s
  loop P.L { st with s := s, cS := cS, sk := sk } (kpInner lib toom i)

/-- The rounding loop (poly.c:91-93, 130-132). -/
def roundPoly (b : List (BitVec 16)) : LM (List (BitVec 16)) :=
  loop N b fun j b => do
    let x ← rd b j
    wr b j (u16 (isar (← iadd (prom x) Saber.M4.h1) (EQ - EP)))

/-- `MatrixVectorMulKeyPair` (poly.c:55-98).  `seed_A` is `pk[POLYVECCOMPRESSEDBYTES..]`, `seed_s` the start of `sk`; both are absorbed
before `sk` and `pk` are written. -/
def MatrixVectorMulKeyPair (pk sk : List Byte) : LM (List Byte × List Byte) := do
  let cA ← shake128_absorb_seed lib pk P.POLYVECCOMPRESSEDBYTES
  let cS ← shake128_absorb_seed lib sk 0
  let st ← loop P.L (⟨sk, uninit 16 133 N, uninit 16 134 N, uninitVec 135 P.L, cA, cS⟩ : KP lib.Ctx) (kpOuter P lib toom cs)
  let (pk, _) ← loop P.L (pk, st.b) fun i (pk, b) => do
    let bi ← rd b i
    let bi ← roundPoly bi
    let b ← wr b i bi
    let pk ← POLp2BS pk (i * POLYCOMPRESSEDBYTES) bi
    pure (pk, b)
  pure (pk, st.sk)

/-- The inner loop of `MatrixVectorMulEnc` (poly.c:119-128). -/
def meInner (sp : List (List (BitVec 16))) (st : ME lib.Ctx) : LM (ME lib.Ctx) :=
  loop P.L st fun j st => do
    let (A, cA) ← shake128_squeeze_poly lib st.A st.cA
    let spj ← rd sp j
    let (A, bp) ← mulAcc toom (j == 0) spj A st.bp
    pure ⟨A, bp, cA⟩

/-- `MatrixVectorMulEnc` with `compare == 0` (poly.c:108-143); `ct0` is `ct[ctOff..]`, `seed_A` is `seed[off..]`.  Returns the new `ct`.
The return value is 0. -/
def MatrixVectorMulEnc (ct : List Byte) (ctOff : Nat) (seed : List Byte) (off : Nat) (sp : List (List (BitVec 16))) : LM (List Byte) := do
  let cA ← shake128_absorb_seed lib seed off
  let (_, ct) ← loop P.L ((⟨uninit 16 136 N, uninit 16 137 N, cA⟩ : ME lib.Ctx), ct) fun i (st, ct) => do
    let st ← meInner P lib toom sp st
    let bp ← roundPoly st.bp
    let ct ← POLp2BS ct (ctOff + i * POLYCOMPRESSEDBYTES) bp
    pure ({ st with bp := bp }, ct)
  pure ct

/-- `MatrixVectorMulEnc` with `compare != 0` (poly.c:108-143).  Returns `fail`; `ct` is not written. -/
def MatrixVectorMulEnc_cmp (ct : List Byte) (ctOff : Nat) (seed : List Byte) (off : Nat) (sp : List (List (BitVec 16))) :
    LM (BitVec 32) := do
  let cA ← shake128_absorb_seed lib seed off
  let (_, fail) ← loop P.L ((⟨uninit 16 136 N, uninit 16 137 N, cA⟩ : ME lib.Ctx), (0 : BitVec 32)) fun i (st, fail) => do
    let st ← meInner P lib toom sp st
    let bp ← roundPoly st.bp
    let f ← POLp2BS_cmp ct (ctOff + i * POLYCOMPRESSEDBYTES) bp
    pure ({ st with bp := bp }, fail ||| f)
  pure fail

/-- The computation of `vp` in `InnerProdEnc` (poly.c:154-175); `pk` is `pk[pkOff..]`, `m` is `m[mOff..]`. -/
def innerProdEncV (pk : List Byte) (pkOff : Nat) (sp : List (List (BitVec 16))) (m : List Byte) (mOff : Nat) : LM (List (BitVec 16)) := do
  let (b, vp) ← loop P.L (uninit 16 138 N, uninit 16 139 N) fun j (b, vp) => do
    let b ← BS2POLp pk (pkOff + j * POLYCOMPRESSEDBYTES) b
    let spj ← rd sp j
    mulAcc toom (j == 0) spj b vp
  let mp ← BS2POLmsg m mOff b
  loop N vp fun j vp => do
    let v ← rd vp j
    let mj ← rd mp j
    wr vp j (u16 (isar (← iadd (← isub (prom v) (← ishl (prom mj) (EP - 1))) Saber.M4.h1) (EP - P.ET)))

/-- `InnerProdEnc` with `compare == 0` (poly.c:152-184).  Returns the new `ct`.  The return value is 0. -/
def InnerProdEnc (ct : List Byte) (ctOff : Nat) (pk : List Byte) (pkOff : Nat) (sp : List (List (BitVec 16))) (m : List Byte) (mOff : Nat) :
    LM (List Byte) := do
  let vp ← innerProdEncV P toom pk pkOff sp m mOff
  POLT2BS P ct ctOff vp

/-- `InnerProdEnc` with `compare != 0` (poly.c:152-184).  Returns `fail`. -/
def InnerProdEnc_cmp (ct : List Byte) (ctOff : Nat) (pk : List Byte) (pkOff : Nat) (sp : List (List (BitVec 16))) (m : List Byte)
    (mOff : Nat) : LM (BitVec 32) := do
  let vp ← innerProdEncV P toom pk pkOff sp m mOff
  let f ← POLT2BS_cmp P ct ctOff vp
  pure ((0 : BitVec 32) ||| f)

/-- `InnerProdDec` (poly.c:187-215).  Returns the new `m`. -/
def InnerProdDec (m ct sk : List Byte) : LM (List Byte) := do
  let st ← loop P.L (⟨uninit 16 140 N, uninit 16 141 N, uninit 16 142 N⟩ : ID) fun i st => do
    let s ← BS2POLmu cs sk (i * POLYSECRETBYTES cs) st.s
    let bp ← BS2POLp ct (i * POLYCOMPRESSEDBYTES) st.bp
    let (bp, v) ← mulAcc toom (i == 0) s bp st.v
    pure ⟨v, s, bp⟩
  let cm ← BS2POLT P ct P.POLYVECCOMPRESSEDBYTES st.bp
  let v ← loop N st.v fun i v => do
    let x ← rd v i
    let c ← rd cm i
    wr v i (u16 (isar (← isub (← iadd (prom x) (Saber.M4.h2 P)) (← ishl (prom c) (EP - P.ET))) (EP - 1)))
  POLmsg2BS m 0 v

end Vars

/-! ## M4/Kem -/

section Vars

variable (P : PSet) (lib : Fips202Lib) (toom : LToom) (cs : Bool)

/-- `indcpa_kem_keypair` (SABER_indcpa.c:8-18) -/
def indcpa_kem_keypair {σ : Type} (rb : RandomBytes σ) (pk sk : List Byte) (st : σ) : LM (List Byte × List Byte × σ) := do
  let (pk, st) ← random rb pk P.POLYVECCOMPRESSEDBYTES SEEDBYTES st
  let (sk, st) ← random rb sk 0 NOISE_SEEDBYTES st
  let pk ← lib_shake128 lib pk P.POLYVECCOMPRESSEDBYTES SEEDBYTES pk P.POLYVECCOMPRESSEDBYTES SEEDBYTES
  let (pk, sk) ← MatrixVectorMulKeyPair P lib toom cs pk sk
  pure (pk, sk, st)

/-- `indcpa_kem_enc` (SABER_indcpa.c:21-31); the pointers point into the given objects at the given offsets. -/
def indcpa_kem_enc (m : List Byte) (mOff : Nat) (seed_sp : List Byte) (seedOff : Nat) (pk : List Byte) (pkOff : Nat)
    (ciphertext : List Byte) : LM (List Byte) := do
  let (sp, _) ← GenSecret P lib cs (uninitVec 143 P.L) seed_sp seedOff 0
  let ct ← MatrixVectorMulEnc P lib toom ciphertext 0 pk (pkOff + P.POLYVECCOMPRESSEDBYTES) sp
  InnerProdEnc P toom ct P.POLYVECCOMPRESSEDBYTES pk pkOff sp m mOff

/-- `indcpa_kem_enc_cmp` (SABER_indcpa.c:33-47) -/
def indcpa_kem_enc_cmp (m : List Byte) (mOff : Nat) (seed_sp : List Byte) (seedOff : Nat) (pk : List Byte) (pkOff : Nat)
    (ciphertext : List Byte) : LM Byte := do
  let fail := (0 : BitVec 32)
  let (sp, _) ← GenSecret P lib cs (uninitVec 144 P.L) seed_sp seedOff 0
  let f ← MatrixVectorMulEnc_cmp P lib toom ciphertext 0 pk (pkOff + P.POLYVECCOMPRESSEDBYTES) sp
  let fail := fail ||| f
  let f ← InnerProdEnc_cmp P toom ciphertext P.POLYVECCOMPRESSEDBYTES pk pkOff sp m mOff
  let fail := fail ||| f
  let fail := ~~~fail + 1
  let fail := fail >>> 31
  pure (fail.setWidth 8)

/-- `indcpa_kem_dec` (SABER_indcpa.c:49-52) -/
def indcpa_kem_dec (sk ciphertext m : List Byte) : LM (List Byte) := InnerProdDec P toom cs m ciphertext sk

/-- `crypto_kem_keypair` (kem.c:8-19).  Returns the return code, `pk`, `sk` and the generator state. -/
def crypto_kem_keypair {σ : Type} (rb : RandomBytes σ) (pk sk : List Byte) (st : σ) : LM (Int × List Byte × List Byte × σ) := do
  let (pk, sk, st) ← indcpa_kem_keypair P lib toom cs rb pk sk st
  let sk ← memcpy sk (Saber.M4.INDCPA_SECRETKEYBYTES P cs) pk 0 P.INDCPA_PUBLICKEYBYTES
  let sk ← lib_sha3_256 lib sk (Saber.M4.SECRETKEYBYTES P cs - 64) pk 0 P.INDCPA_PUBLICKEYBYTES
  let (sk, st) ← random rb sk (Saber.M4.SECRETKEYBYTES P cs - KEYBYTES) KEYBYTES st
  pure (0, pk, sk, st)

/-- `crypto_kem_enc` (kem.c:21-41).  Returns the return code, `c`, `k` and the generator state. -/
def crypto_kem_enc {σ : Type} (rb : RandomBytes σ) (c k pk : List Byte) (st : σ) : LM (Int × List Byte × List Byte × σ) := do
  let kr := uninit 8 145 64
  let buf := uninit 8 146 64
  let (buf, st) ← random rb buf 0 32 st
  let buf ← lib_sha3_256 lib buf 0 buf 0 32
  let buf ← lib_sha3_256 lib buf 32 pk 0 P.INDCPA_PUBLICKEYBYTES
  let kr ← lib_sha3_512 lib kr 0 buf 0 64
  let c ← indcpa_kem_enc P lib toom cs buf 0 kr 32 pk 0 c
  let kr ← lib_sha3_256 lib kr 32 c 0 P.BYTES_CCA_DEC
  let k ← lib_sha3_256 lib k 0 kr 0 64
  pure (0, c, k, st)

/-- `crypto_kem_dec` (kem.c:43-66).  Returns the return code and `k`. -/
def crypto_kem_dec (k c sk : List Byte) : LM (Int × List Byte) := do
  let buf := uninit 8 147 64
  let kr := uninit 8 148 64
  let buf ← indcpa_kem_dec P toom cs sk c buf
  let buf ← memcpy buf 32 sk (Saber.M4.SECRETKEYBYTES P cs - 64) 32
  let kr ← lib_sha3_512 lib kr 0 buf 0 64
  let fail ← indcpa_kem_enc_cmp P lib toom cs buf 0 kr 32 sk (Saber.M4.INDCPA_SECRETKEYBYTES P cs) c
  let kr ← lib_sha3_256 lib kr 32 c 0 P.BYTES_CCA_DEC
  let kr ← cmov kr 0 sk (Saber.M4.SECRETKEYBYTES P cs - KEYBYTES) KEYBYTES fail
  let k ← lib_sha3_256 lib k 0 kr 0 64
  pure (0, k)

end Vars

end Saber.Leak.M4
