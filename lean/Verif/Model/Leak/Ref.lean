import Verif.Model.Kem
import Verif.Model.Leak.Monad
/-!
# The reference implementation with events

Generated by `tools/leakgen.py` from Model/Pack.lean, Model/PolyMul.lean, Model/Cbd.lean, Model/Fips202.lean, Model/Verify.lean, Model/Poly.lean, Model/Indcpa.lean, Model/Kem.lean: the same code over the operations of `Model/Leak/Monad.lean`.  The erasure theorems in
`Proof/Leak` say that leaving out the events gives the model.  A condition that is fixed by the build configuration has no event.
-/
namespace Saber.Leak

/-- Call of `randombytes`; what the generator itself does is not observed. -/
def random {σ : Type} (rb : RandomBytes σ) (buf : List Byte) (off n : Nat) (st : σ) : LM (List Byte × σ) := ⟨[.random off n], rb buf off n st⟩

/-! ## Pack -/

/-- `POLT2BS` (pack_unpack.c:5-36, `SABER_ET == 3`); `bytes` is `(bytes, off)`. -/
def POLT2BS_3 (bytes : List Byte) (off : Nat) (data : List (BitVec 16)) : LM (List Byte) :=
  loop (N / 8) bytes fun j bytes => do
    let d0 ← rdN data (8 * j + 0)
    let d1 ← rdN data (8 * j + 1)
    let d2 ← rdN data (8 * j + 2)
    let d3 ← rdN data (8 * j + 3)
    let d4 ← rdN data (8 * j + 4)
    let d5 ← rdN data (8 * j + 5)
    let d6 ← rdN data (8 * j + 6)
    let d7 ← rdN data (8 * j + 7)
    wrs bytes (off + 3 * j) (POLT2BS_3Blk d0 d1 d2 d3 d4 d5 d6 d7)

/-- `POLT2BS` (pack_unpack.c:5-36, `SABER_ET == 4`); `bytes` is `(bytes, off)`. -/
def POLT2BS_4 (bytes : List Byte) (off : Nat) (data : List (BitVec 16)) : LM (List Byte) :=
  loop (N / 2) bytes fun j bytes => do
    let d0 ← rdN data (2 * j + 0)
    let d1 ← rdN data (2 * j + 1)
    wrs bytes (off + 1 * j) (POLT2BS_4Blk d0 d1)

/-- `POLT2BS` (pack_unpack.c:5-36, `SABER_ET == 6`); `bytes` is `(bytes, off)`. -/
def POLT2BS_6 (bytes : List Byte) (off : Nat) (data : List (BitVec 16)) : LM (List Byte) :=
  loop (N / 4) bytes fun j bytes => do
    let d0 ← rdN data (4 * j + 0)
    let d1 ← rdN data (4 * j + 1)
    let d2 ← rdN data (4 * j + 2)
    let d3 ← rdN data (4 * j + 3)
    wrs bytes (off + 3 * j) (POLT2BS_6Blk d0 d1 d2 d3)

/-- `BS2POLT` (pack_unpack.c:38-76, `SABER_ET == 3`); `bytes` is `(bytes, off)`. -/
def BS2POLT_3 (bytes : List Byte) (off : Nat) (data : List (BitVec 16)) : LM (List (BitVec 16)) :=
  loop (N / 8) data fun j data => do
    let b0 ← rdN bytes (off + 3 * j + 0)
    let b1 ← rdN bytes (off + 3 * j + 1)
    let b2 ← rdN bytes (off + 3 * j + 2)
    wrs data (8 * j) (BS2POLT_3Blk b0 b1 b2)

/-- `BS2POLT` (pack_unpack.c:38-76, `SABER_ET == 4`); `bytes` is `(bytes, off)`. -/
def BS2POLT_4 (bytes : List Byte) (off : Nat) (data : List (BitVec 16)) : LM (List (BitVec 16)) :=
  loop (N / 2) data fun j data => do
    let b0 ← rdN bytes (off + 1 * j + 0)
    wrs data (2 * j) (BS2POLT_4Blk b0)

/-- `BS2POLT` (pack_unpack.c:38-76, `SABER_ET == 6`); `bytes` is `(bytes, off)`. -/
def BS2POLT_6 (bytes : List Byte) (off : Nat) (data : List (BitVec 16)) : LM (List (BitVec 16)) :=
  loop (N / 4) data fun j data => do
    let b0 ← rdN bytes (off + 3 * j + 0)
    let b1 ← rdN bytes (off + 3 * j + 1)
    let b2 ← rdN bytes (off + 3 * j + 2)
    wrs data (4 * j) (BS2POLT_6Blk b0 b1 b2)

/-- `POLq2BS` (pack_unpack.c:78-99); `bytes` is `(bytes, off)`. -/
def POLq2BS (bytes : List Byte) (off : Nat) (data : List (BitVec 16)) : LM (List Byte) :=
  loop (N / 8) bytes fun j bytes => do
    let d0 ← rdN data (8 * j + 0)
    let d1 ← rdN data (8 * j + 1)
    let d2 ← rdN data (8 * j + 2)
    let d3 ← rdN data (8 * j + 3)
    let d4 ← rdN data (8 * j + 4)
    let d5 ← rdN data (8 * j + 5)
    let d6 ← rdN data (8 * j + 6)
    let d7 ← rdN data (8 * j + 7)
    wrs bytes (off + 13 * j) (POLq2BSBlk d0 d1 d2 d3 d4 d5 d6 d7)

/-- `BS2POLq` (pack_unpack.c:101-117); `bytes` is `(bytes, off)`. -/
def BS2POLq (bytes : List Byte) (off : Nat) (data : List (BitVec 16)) : LM (List (BitVec 16)) :=
  loop (N / 8) data fun j data => do
    let b0 ← rdN bytes (off + 13 * j + 0)
    let b1 ← rdN bytes (off + 13 * j + 1)
    let b2 ← rdN bytes (off + 13 * j + 2)
    let b3 ← rdN bytes (off + 13 * j + 3)
    let b4 ← rdN bytes (off + 13 * j + 4)
    let b5 ← rdN bytes (off + 13 * j + 5)
    let b6 ← rdN bytes (off + 13 * j + 6)
    let b7 ← rdN bytes (off + 13 * j + 7)
    let b8 ← rdN bytes (off + 13 * j + 8)
    let b9 ← rdN bytes (off + 13 * j + 9)
    let b10 ← rdN bytes (off + 13 * j + 10)
    let b11 ← rdN bytes (off + 13 * j + 11)
    let b12 ← rdN bytes (off + 13 * j + 12)
    wrs data (8 * j) (BS2POLqBlk b0 b1 b2 b3 b4 b5 b6 b7 b8 b9 b10 b11 b12)

/-- `POLp2BS` (pack_unpack.c:119-132); `bytes` is `(bytes, off)`. -/
def POLp2BS (bytes : List Byte) (off : Nat) (data : List (BitVec 16)) : LM (List Byte) :=
  loop (N / 4) bytes fun j bytes => do
    let d0 ← rdN data (4 * j + 0)
    let d1 ← rdN data (4 * j + 1)
    let d2 ← rdN data (4 * j + 2)
    let d3 ← rdN data (4 * j + 3)
    wrs bytes (off + 5 * j) (POLp2BSBlk d0 d1 d2 d3)

/-- `BS2POLp` (pack_unpack.c:134-146); `bytes` is `(bytes, off)`. -/
def BS2POLp (bytes : List Byte) (off : Nat) (data : List (BitVec 16)) : LM (List (BitVec 16)) :=
  loop (N / 4) data fun j data => do
    let b0 ← rdN bytes (off + 5 * j + 0)
    let b1 ← rdN bytes (off + 5 * j + 1)
    let b2 ← rdN bytes (off + 5 * j + 2)
    let b3 ← rdN bytes (off + 5 * j + 3)
    let b4 ← rdN bytes (off + 5 * j + 4)
    wrs data (4 * j) (BS2POLpBlk b0 b1 b2 b3 b4)

/-- `POLT2BS` (pack_unpack.c:5-36): the `#if` on `SABER_ET`. -/
def POLT2BS : PSet → List Byte → Nat → List (BitVec 16) → LM (List Byte)
  | .light => POLT2BS_3
  | .saber => POLT2BS_4
  | .fire => POLT2BS_6

/-- `BS2POLT` (pack_unpack.c:38-76): the `#if` on `SABER_ET`. -/
def BS2POLT : PSet → List Byte → Nat → List (BitVec 16) → LM (List (BitVec 16))
  | .light => BS2POLT_3
  | .saber => BS2POLT_4
  | .fire => BS2POLT_6

/-- `POLVECq2BS` (pack_unpack.c:148-155) -/
def POLVECq2BS (P : PSet) (bytes : List Byte) (off : Nat) (data : List (List (BitVec 16))) : LM (List Byte) :=
  loop P.L bytes fun i bytes => do
    let row ← rd data i
    POLq2BS bytes (off + i * POLYBYTES) row

/-- `BS2POLVECq` (pack_unpack.c:157-164) -/
def BS2POLVECq (P : PSet) (bytes : List Byte) (off : Nat) (data : List (List (BitVec 16))) :
    LM (List (List (BitVec 16))) :=
  loop P.L data fun i data => do
    let row ← rd data i
    let row ← BS2POLq bytes (off + i * POLYBYTES) row
    wr data i row

/-- `POLVECp2BS` (pack_unpack.c:166-173) -/
def POLVECp2BS (P : PSet) (bytes : List Byte) (off : Nat) (data : List (List (BitVec 16))) : LM (List Byte) :=
  loop P.L bytes fun i bytes => do
    let row ← rd data i
    POLp2BS bytes (off + i * (EP * N / 8)) row

/-- `BS2POLVECp` (pack_unpack.c:175-182) -/
def BS2POLVECp (P : PSet) (bytes : List Byte) (off : Nat) (data : List (List (BitVec 16))) :
    LM (List (List (BitVec 16))) :=
  loop P.L data fun i data => do
    let row ← rd data i
    let row ← BS2POLp bytes (off + i * (EP * N / 8)) row
    wr data i row

/-- `BS2POLmsg` (pack_unpack.c:184-194) -/
def BS2POLmsg (bytes : List Byte) (off : Nat) (data : List (BitVec 16)) : LM (List (BitVec 16)) :=
  loop KEYBYTES data fun j data =>
    loop 8 data fun i data => do
      let b ← rdN bytes (off + j)
      wr data (j * 8 + i) (n16 ((b >>> i) &&& 0x01))

/-- `POLmsg2BS` (pack_unpack.c:196-208) -/
def POLmsg2BS (bytes : List Byte) (off : Nat) (data : List (BitVec 16)) : LM (List Byte) := do
  let bytes ← memset bytes off 0 KEYBYTES
  loop KEYBYTES bytes fun j bytes =>
    loop 8 bytes fun i bytes => do
      let b ← rdN bytes (off + j)
      let d ← rdN data (j * 8 + i)
      wr bytes (off + j) (n8 (b ||| ((d &&& 0x01) <<< i)))

/-! ## PolyMul -/

/-- Body of the inner loop of `karatsuba_simple` (poly_mul.c:38-82). -/
def karaInner (b : List (BitVec 16)) (i : Nat) (acc1 acc2 acc3 acc4 : BitVec 16) (j : Nat) (s : KS) : LM KS := do
  let acc5 ← rd b j
  let acc6 ← rd b (j + KN / 4)
  let rf ← addTo s.rf (i + j + 0 * KN / 4) (acc1 * acc5)
  let rf ← addTo rf (i + j + 2 * KN / 4) (acc2 * acc6)
  let acc7 := acc5 + acc6
  let acc8 := acc1 + acc2
  let d01 ← addTo s.d01 (i + j) (acc7 * acc8)
  let acc7 ← rd b (j + 2 * KN / 4)
  let acc8 ← rd b (j + 3 * KN / 4)
  let rf ← addTo rf (i + j + 4 * KN / 4) (acc7 * acc3)
  let rf ← addTo rf (i + j + 6 * KN / 4) (acc8 * acc4)
  let acc9 := acc3 + acc4
  let acc10 := acc7 + acc8
  let d23 ← addTo s.d23 (i + j) (acc9 * acc10)
  let acc5 := acc5 + acc7
  let acc7 := acc1 + acc3
  let rd01 ← addTo s.rd01 (i + j + 0 * KN / 4) (acc5 * acc7)
  let acc6 := acc6 + acc8
  let acc8 := acc2 + acc4
  let rd01 ← addTo rd01 (i + j + 2 * KN / 4) (acc6 * acc8)
  let acc5 := acc5 + acc6
  let acc7 := acc7 + acc8
  let d0123 ← addTo s.d0123 (i + j) (acc5 * acc7)
  pure ⟨rf, d01, d0123, d23, rd01⟩

/-- First loop nest of `karatsuba_simple` (poly_mul.c:31-84). -/
def karaMul (a b : List (BitVec 16)) (s : KS) : LM KS :=
  loop (KN / 4) s fun i s => do
    let acc1 ← rd a i
    let acc2 ← rd a (i + KN / 4)
    let acc3 ← rd a (i + 2 * KN / 4)
    let acc4 ← rd a (i + 3 * KN / 4)
    loop (KN / 4) s (karaInner b i acc1 acc2 acc3 acc4)

/-- Body of the loop "2nd last stage" (poly_mul.c:88-92). -/
def karaStage1 (i : Nat) (s : KS) : LM KS := do
  let x ← rd s.d0123 i
  let y ← rd s.rd01 (i + 0 * KN / 4)
  let z ← rd s.rd01 (i + 2 * KN / 4)
  let d0123 ← wr s.d0123 i (x - y - z)
  let x ← rd s.d01 i
  let y ← rd s.rf (i + 0 * KN / 4)
  let z ← rd s.rf (i + 2 * KN / 4)
  let d01 ← wr s.d01 i (x - y - z)
  let x ← rd s.d23 i
  let y ← rd s.rf (i + 4 * KN / 4)
  let z ← rd s.rf (i + 6 * KN / 4)
  let d23 ← wr s.d23 i (x - y - z)
  pure { s with d0123 := d0123, d01 := d01, d23 := d23 }

/-- Body of the loop at poly_mul.c:94-98. -/
def karaStage2 (i : Nat) (s : KS) : LM KS := do
  let v ← rd s.d0123 i
  let rd01 ← addTo s.rd01 (i + 1 * KN / 4) v
  let v ← rd s.d01 i
  let rf ← addTo s.rf (i + 1 * KN / 4) v
  let v ← rd s.d23 i
  let rf ← addTo rf (i + 5 * KN / 4) v
  pure { s with rd01 := rd01, rf := rf }

/-- Body of the loop "Last stage" (poly_mul.c:101-103). -/
def karaStage3 (i : Nat) (s : KS) : LM KS := do
  let x ← rd s.rd01 i
  let y ← rd s.rf i
  let z ← rd s.rf (i + KN)
  let rd01 ← wr s.rd01 i (x - y - z)
  pure { s with rd01 := rd01 }

/-- Body of the loop at poly_mul.c:105-107. -/
def karaStage4 (i : Nat) (s : KS) : LM KS := do
  let v ← rd s.rd01 i
  let rf ← addTo s.rf (i + 1 * KN / 2) v
  pure { s with rf := rf }

/-- `karatsuba_simple` (poly_mul.c:14-109).  The four local arrays are declared and then completely cleared
by `memset` (lines 22-25); the new content of `result_final` is returned. -/
def karatsuba_simple (a_1 b_1 result_final : List (BitVec 16)) : LM (List (BitVec 16)) := do
  let rd01 ← memset (uninit 16 1 (KN - 1)) 0 0 (KN - 1)
  let d01 ← memset (uninit 16 2 (KN / 2 - 1)) 0 0 (KN / 2 - 1)
  let d0123 ← memset (uninit 16 3 (KN / 2 - 1)) 0 0 (KN / 2 - 1)
  let d23 ← memset (uninit 16 4 (KN / 2 - 1)) 0 0 (KN / 2 - 1)
  let rf ← memset result_final 0 0 (2 * KN - 1)
  let s ← karaMul a_1 b_1 ⟨rf, d01, d0123, d23, rd01⟩
  let s ← loop (KN / 2 - 1) s karaStage1
  let s ← loop (KN / 2 - 1) s karaStage2
  let s ← loop (KN - 1) s karaStage3
  let s ← loop (KN - 1) s karaStage4
  pure s.rf

/-- Body of the evaluation loops (poly_mul.c:142-157 and 164-179): values stored at one index. -/
def toomEval (r0 r1 r2 r3 : BitVec 16) : LM (Ev (BitVec 16)) := do
  let r4 := u16 (← iadd (prom r0) (prom r2))
  let r5 := u16 (← iadd (prom r1) (prom r3))
  let r6 := u16 (← iadd (prom r4) (prom r5))
  let r7 := u16 (← isub (prom r4) (prom r5))
  let w3 := r6
  let w4 := r7
  let r4 := u16 (← ishl (← iadd (← ishl (prom r0) 2) (prom r2)) 1)
  let r5 := u16 (← iadd (← ishl (prom r1) 2) (prom r3))
  let r6 := u16 (← iadd (prom r4) (prom r5))
  let r7 := u16 (← isub (prom r4) (prom r5))
  let w5 := r6
  let w6 := r7
  let r4 := u16 (← iadd (← iadd (← iadd (← ishl (prom r3) 3) (← ishl (prom r2) 2)) (← ishl (prom r1) 1)) (prom r0))
  pure { w1 := r3, w2 := r4, w3 := w3, w4 := w4, w5 := w5, w6 := w6, w7 := r0 }

/-- Evaluation loop (poly_mul.c:137-158 for `a1`, 159-180 for `b1`).  `A0..A3` point to the four quarters of the operand
(poly_mul.c:122-129). -/
def toomEvalLoop (a1 : List (BitVec 16)) (s : Ev (List (BitVec 16))) : LM (Ev (List (BitVec 16))) :=
  loop N_SB s fun j s => do
    let r0 ← rd a1 j
    let r1 ← rd a1 (N_SB + j)
    let r2 ← rd a1 (2 * N_SB + j)
    let r3 ← rd a1 (3 * N_SB + j)
    let e ← toomEval r0 r1 r2 r3
    let aw3 ← wr s.w3 j e.w3
    let aw4 ← wr s.w4 j e.w4
    let aw5 ← wr s.w5 j e.w5
    let aw6 ← wr s.w6 j e.w6
    let aw2 ← wr s.w2 j e.w2
    let aw7 ← wr s.w7 j e.w7
    let aw1 ← wr s.w1 j e.w1
    pure { w1 := aw1, w2 := aw2, w3 := aw3, w4 := aw4, w5 := aw5, w6 := aw6, w7 := aw7 }

/-- Body of the interpolation loop up to the stores (poly_mul.c:202-219). Result: `r6, r5, r4, r3, r2, r1, r0`. -/
def toomInterp (r0 r1 r2 r3 r4 r5 r6 : BitVec 16) : LM (Ev (BitVec 16)) := do
  let r1 := u16 (← iadd (prom r1) (prom r4))
  let r5 := u16 (← isub (prom r5) (prom r4))
  let r3 := u16 (isar (← isub (prom r3) (prom r2)) 1)
  let r4 := u16 (← isub (prom r4) (prom r0))
  let r4 := u16 (← isub (prom r4) (← ishl (prom r6) 6))
  let r4 := u16 (← iadd (← ishl (prom r4) 1) (prom r5))
  let r2 := u16 (← iadd (prom r2) (prom r3))
  let r1 := u16 (← isub (← isub (prom r1) (← ishl (prom r2) 6)) (prom r2))
  let r2 := u16 (← isub (prom r2) (prom r6))
  let r2 := u16 (← isub (prom r2) (prom r0))
  let r1 := u16 (← iadd (prom r1) (← imul 45 (prom r2)))
  let r4 := mulShift (← isub (prom r4) (← ishl (prom r2) 3)) inv3 3
  let r5 := u16 (← iadd (prom r5) (prom r1))
  let r1 := mulShift (← iadd (prom r1) (← ishl (prom r3) 4)) inv9 1
  let r3 := u16 (← isub 0 (← iadd (prom r3) (prom r1)))
  let r5 := mulShift (← isub (← imul 30 (prom r1)) (prom r5)) inv15 2
  let r2 := u16 (← isub (prom r2) (prom r4))
  let r1 := u16 (← isub (prom r1) (prom r5))
  pure { w1 := r6, w2 := r5, w3 := r4, w4 := r3, w5 := r2, w6 := r1, w7 := r0 }

/-- `toom_cook_4way` (poly_mul.c:113-229); the new content of `result` is returned. -/
def toom_cook_4way (a1 b1 result : List (BitVec 16)) : LM (List (BitVec 16)) := do
  let u := fun t => uninit 16 t N_SB
  let aw ← toomEvalLoop a1 ⟨u 5, u 6, u 7, u 8, u 9, u 10, u 11⟩
  let bw ← toomEvalLoop b1 ⟨u 12, u 13, u 14, u 15, u 16, u 17, u 18⟩
  let z := List.replicate N_SB_RES 0
  let w1 ← karatsuba_simple aw.w1 bw.w1 z
  let w2 ← karatsuba_simple aw.w2 bw.w2 z
  let w3 ← karatsuba_simple aw.w3 bw.w3 z
  let w4 ← karatsuba_simple aw.w4 bw.w4 z
  let w5 ← karatsuba_simple aw.w5 bw.w5 z
  let w6 ← karatsuba_simple aw.w6 bw.w6 z
  let w7 ← karatsuba_simple aw.w7 bw.w7 z
  loop N_SB_RES result fun i C => do
    let r0 ← rd w1 i
    let r1 ← rd w2 i
    let r2 ← rd w3 i
    let r3 ← rd w4 i
    let r4 ← rd w5 i
    let r5 ← rd w6 i
    let r6 ← rd w7 i
    let o ← toomInterp r0 r1 r2 r3 r4 r5 r6
    let C ← addTo C i o.w1
    let C ← addTo C (i + 64) o.w2
    let C ← addTo C (i + 128) o.w3
    let C ← addTo C (i + 192) o.w4
    let C ← addTo C (i + 256) o.w5
    let C ← addTo C (i + 320) o.w6
    addTo C (i + 384) o.w7

/-- `poly_mul_acc` (poly_mul.c:232-244): `res += a*b`.  The loop variable is `i = SABER_N + t`. -/
def poly_mul_acc (a b res : List (BitVec 16)) : LM (List (BitVec 16)) := do
  let c ← toom_cook_4way a b (List.replicate (2 * N) 0)
  loop N res fun t res => do
    let i := N + t
    let x ← rd c (i - N)
    let y ← rd c i
    addTo res (i - N) (x - y)

/-! ## Cbd -/

/-- `load_littleendian` (cbd.c:14-21); `x` points to `x[off]`. -/
def load_littleendian (x : List Byte) (off bytes : Nat) : LM (BitVec 64) := do
  let x0 ← rd x off
  loop (bytes - 1) (x0.setWidth 64) fun i r => do
    let v ← rd x (off + (i + 1))
    pure (r ||| (v.setWidth 64 <<< (8 * (i + 1))))

/-- `cbd` (cbd.c:23-103); `buf` points to `buf[off]`; the new content of `s` is returned. -/
def cbd (P : PSet) (s : List (BitVec 16)) (buf : List Byte) (off : Nat) : LM (List (BitVec 16)) :=
  match P with
  | .fire => loop (N / 4) s fun i s => do
    let t ← load_littleendian buf (off + 3 * i) 3
    wrs s (4 * i) (cbdBlk6 (t.setWidth 32))
  | .saber => loop (N / 4) s fun i s => do
    let t ← load_littleendian buf (off + 4 * i) 4
    wrs s (4 * i) (cbdBlk8 (t.setWidth 32))
  | .light => loop (N / 4) s fun i s => do
    let t ← load_littleendian buf (off + 5 * i) 5
    wrs s (4 * i) (cbdBlk10 t)

/-! ## Fips202 -/

/-- `load64` (fips202.c:15-24); `x` points to `xs[off]`. -/
def load64 (xs : List Byte) (off : Nat) : LM (BitVec 64) :=
  loop 8 0 fun i r => do
    let x ← rd xs (off + i)
    pure (r ||| (x.setWidth 64 <<< (8 * i)))

/-- `store64` (fips202.c:26-35); `x` points to `xs[off]`. -/
def store64 (xs : List Byte) (off : Nat) (u : BitVec 64) : LM (List Byte) := do
  let (xs, _) ← loop 8 (xs, u) fun i (xs, u) => do
    let xs ← wr xs (off + i) (u.setWidth 8)
    pure (xs, u >>> 8)
  pure xs

/-- `KeccakF1600_StatePermute` (fips202.c:64-329); iteration `i` of the loop has `round = 2 * i`. -/
def KeccakF1600_StatePermute (state : List (BitVec 64)) : LM (List (BitVec 64)) := do
  let Aba ← rd state 0
  let Abe ← rd state 1
  let Abi ← rd state 2
  let Abo ← rd state 3
  let Abu ← rd state 4
  let Aga ← rd state 5
  let Age ← rd state 6
  let Agi ← rd state 7
  let Ago ← rd state 8
  let Agu ← rd state 9
  let Aka ← rd state 10
  let Ake ← rd state 11
  let Aki ← rd state 12
  let Ako ← rd state 13
  let Aku ← rd state 14
  let Ama ← rd state 15
  let Ame ← rd state 16
  let Ami ← rd state 17
  let Amo ← rd state 18
  let Amu ← rd state 19
  let Asa ← rd state 20
  let Ase ← rd state 21
  let Asi ← rd state 22
  let Aso ← rd state 23
  let Asu ← rd state 24
  let st ← loop 12 (⟨Aba, Abe, Abi, Abo, Abu, Aga, Age, Agi, Ago, Agu, Aka, Ake, Aki, Ako, Aku, Ama, Ame, Ami, Amo, Amu, Asa, Ase, Asi, Aso, Asu⟩ : Lanes) fun i st => do
    let rc0 ← rd KeccakF_RoundConstants (2 * i)
    let rc1 ← rd KeccakF_RoundConstants (2 * i + 1)
    pure (keccakDoubleRound rc0 rc1 st)
  wrs state 0 [st.Aba, st.Abe, st.Abi, st.Abo, st.Abu, st.Aga, st.Age, st.Agi, st.Ago, st.Agu, st.Aka, st.Ake, st.Aki, st.Ako, st.Aku, st.Ama, st.Ame, st.Ami, st.Amo, st.Amu, st.Asa, st.Ase, st.Asi, st.Aso, st.Asu]

/-- The function to which the calls of `KeccakF1600_StatePermute` are linked, with its events; compare `Saber.StatePermute`. -/
class LPermute where
  /-- the function: old contents of the state, new contents of the state -/
  permute : List (BitVec 64) → LM (List (BitVec 64))

instance reference : LPermute := ⟨Leak.KeccakF1600_StatePermute⟩

/-- `for (i = 0; i < r / 8; ++i) s[i] ^= load64(m + 8 * i)` (fips202.c:344-345 and 358-359) -/
def xorBlock (s : List (BitVec 64)) (r : Nat) (m : List Byte) (mOff : Nat) : LM (List (BitVec 64)) :=
  loop (r / 8) s fun i s => do
    let v ← load64 m (mOff + 8 * i)
    let x ← rd s i
    wr s i (x ^^^ v)

section Linked
variable [L : LPermute]

/-- The `while (mlen >= r)` loop of `keccak_absorb` (fips202.c:342-350); returns `s`, the offset of `m` and `mlen`.
For `r = 0` the C loop does not terminate; the callers pass 168, 136 and 72. -/
def absorbLoop (s : List (BitVec 64)) (r : Nat) (m : List Byte) (mOff mlen : Nat) :
    LM (List (BitVec 64) × Nat × Nat) :=
  do
  branch (decide (r ≤ mlen ∧ 0 < r))
  if h : r ≤ mlen ∧ 0 < r then do
    let s ← xorBlock s r m mOff
    let s ← LPermute.permute s
    absorbLoop s r m (mOff + r) (mlen - r)
  else
    pure (s, mOff, mlen)
termination_by mlen

/-- `keccak_absorb` (fips202.c:334-360); `m` points to `m[mOff]`.  After the loop at 354-355 the variable `i` is `mlen`. -/
def keccak_absorb (s : List (BitVec 64)) (r : Nat) (m : List Byte) (mOff mlen : Nat) (p : Byte) :
    LM (List (BitVec 64)) := do
  let (s, mOff, mlen) ← absorbLoop s r m mOff mlen
  let t := uninit 8 20 200
  let t ← loop r t fun i t => wr t i 0
  let t ← loop mlen t fun i t => do
    let v ← rd m (mOff + i)
    wr t i v
  let t ← wr t mlen p
  let v ← rd t (r - 1)
  let t ← wr t (r - 1) (v ||| 128)
  xorBlock s r t 0

/-- `keccak_squeezeblocks` (fips202.c:362-377); `h` points to `h[hOff]`; returns the new contents of `h` and `s`.
The loop counts `nblocks` down to 0. -/
def keccak_squeezeblocks (h : List Byte) (hOff nblocks : Nat) (s : List (BitVec 64)) (r : Nat) :
    LM (List Byte × List (BitVec 64)) := do
  let (h, _, s) ← loop nblocks (h, hOff, s) fun _ (h, hOff, s) => do
    let s ← LPermute.permute s
    let h ← loop (r >>> 3) h fun i h => do
      let v ← rd s i
      store64 h (hOff + 8 * i) v
    pure (h, hOff + r, s)
  pure (h, s)

/-- `uint64_t s[25]` cleared by the loop (fips202.c:394-395, 473-474, 492-493). -/
def clearState : LM (List (BitVec 64)) := loop 25 (uninit 64 21 25) fun i s => wr s i 0

/-- `shake128` (fips202.c:386-412).  `output` points to `output[outOff]`, `input` to `input[inOff]`; the new content of the
output object is returned.  All reads of the input happen in `keccak_absorb`, before the first write to the output, so a call in
which both pointers point into the same object is modelled by passing that object twice. -/
def shake128 (output : List Byte) (outOff outlen : Nat) (input : List Byte) (inOff inlen : Nat) : LM (List Byte) := do
  let nblocks := outlen / SHAKE128_RATE
  let s ← clearState
  let s ← keccak_absorb s SHAKE128_RATE input inOff inlen 0x1F
  let (output, s) ← keccak_squeezeblocks output outOff nblocks s SHAKE128_RATE
  let outOff := outOff + nblocks * SHAKE128_RATE
  let outlen := outlen - nblocks * SHAKE128_RATE
  branch (decide (outlen ≠ 0))
  if outlen ≠ 0 then
    let (t, _) ← keccak_squeezeblocks (uninit 8 22 SHAKE128_RATE) 0 1 s SHAKE128_RATE
    loop outlen output fun i output => do
      let v ← rd t i
      wr output (outOff + i) v
  else
    pure output

/-- `sha3_256` (fips202.c:467-484); same conventions as `shake128`. -/
def sha3_256 (output : List Byte) (outOff : Nat) (input : List Byte) (inOff inlen : Nat) : LM (List Byte) := do
  let s ← clearState
  let s ← keccak_absorb s SHA3_256_RATE input inOff inlen 0x06
  let (t, _) ← keccak_squeezeblocks (uninit 8 23 SHA3_256_RATE) 0 1 s SHA3_256_RATE
  loop 32 output fun i output => do
    let v ← rd t i
    wr output (outOff + i) v

/-- `sha3_512` (fips202.c:486-503); same conventions as `shake128`. -/
def sha3_512 (output : List Byte) (outOff : Nat) (input : List Byte) (inOff inlen : Nat) : LM (List Byte) := do
  let s ← clearState
  let s ← keccak_absorb s SHA3_512_RATE input inOff inlen 0x06
  let (t, _) ← keccak_squeezeblocks (uninit 8 24 SHA3_512_RATE) 0 1 s SHA3_512_RATE
  loop 64 output fun i output => do
    let v ← rd t i
    wr output (outOff + i) v

end Linked

/-! ## Verify -/

/-- `verify` (verify.c:13-24); `a`, `b` point to `a[aOff]`, `b[bOff]`.  `a[i] ^ b[i]` is a non-negative `int`; the final `uint64_t`
is 0 or 1, so its conversion to `int` keeps the value. -/
def verify (a : List Byte) (aOff : Nat) (b : List Byte) (bOff len : Nat) : LM Int := do
  let r ← loop len (0 : BitVec 64) fun i r => do
    let x ← rd a (aOff + i)
    let y ← rd b (bOff + i)
    pure (r ||| (x ^^^ y).setWidth 64)
  let r := (-r) >>> 63
  pure (r.toNat : Int)

/-- `cmov` (verify.c:27-34); `r`, `x` point to `r[rOff]`, `x[xOff]`.  `b = -b` is the negation of the promoted value, converted back
to `unsigned char`. -/
def cmov (r : List Byte) (rOff : Nat) (x : List Byte) (xOff len : Nat) (b : Byte) : LM (List Byte) :=
  let b := BitVec.ofInt 8 (-(prom b))
  loop len r fun i r => do
    let xi ← rd x (xOff + i)
    let ri ← rd r (rOff + i)
    wr r (rOff + i) (ri ^^^ (b &&& (xi ^^^ ri)))

/-! ## Poly -/

/-- `MatrixVectorMul` (poly.c:9-26); the new content of `res` is returned. -/
def MatrixVectorMul (P : PSet) (A : List (List (List (BitVec 16)))) (s res : List (List (BitVec 16))) (transpose : Int) :
    LM (List (List (BitVec 16))) :=
  loop P.L res fun i res =>
    loop P.L res fun j res => do
      branch (decide (transpose = 1))
      if transpose = 1 then
        let Aj ← rd A j
        let a ← rd Aj i
        let sj ← rd s j
        let ri ← rd res i
        let ri ← poly_mul_acc a sj ri
        wr res i ri
      else
        let Ai ← rd A i
        let a ← rd Ai j
        let sj ← rd s j
        let ri ← rd res i
        let ri ← poly_mul_acc a sj ri
        wr res i ri

/-- `InnerProd` (poly.c:28-35); the new content of `res` is returned. -/
def InnerProd (P : PSet) (b s : List (List (BitVec 16))) (res : List (BitVec 16)) : LM (List (BitVec 16)) :=
  loop P.L res fun j res => do
    let bj ← rd b j
    let sj ← rd s j
    poly_mul_acc bj sj res

/-- `GenMatrix` (poly.c:37-48); `seed` points to `seed[seedOff]`. -/
def GenMatrix (P : PSet) (A : List (List (List (BitVec 16)))) (seed : List Byte) (seedOff : Nat) :
    LM (List (List (List (BitVec 16)))) := do
  let buf ← shake128 (uninit 8 30 (P.L * P.POLYVECBYTES)) 0 (P.L * P.POLYVECBYTES) seed seedOff SEEDBYTES
  loop P.L A fun i A => do
    let Ai ← rd A i
    let Ai ← BS2POLVECq P buf (i * P.POLYVECBYTES) Ai
    wr A i Ai

/-- `GenSecret` (poly.c:50-61); `seed` points to `seed[seedOff]`. -/
def GenSecret (P : PSet) (s : List (List (BitVec 16))) (seed : List Byte) (seedOff : Nat) :
    LM (List (List (BitVec 16))) := do
  let buf ← shake128 (uninit 8 31 (P.L * P.POLYCOINBYTES)) 0 (P.L * P.POLYCOINBYTES) seed seedOff NOISE_SEEDBYTES
  loop P.L s fun i s => do
    let si ← rd s i
    let si ← cbd P si buf (i * P.POLYCOINBYTES)
    wr s i si

/-! ## Indcpa -/

/-- The rounding loops (SABER_indcpa.c:32-38 and 60-66). -/
def roundVec (P : PSet) (b : List (List (BitVec 16))) : LM (List (List (BitVec 16))) :=
  loop P.L b fun i b =>
    loop N b fun j b => do
      let bi ← rd b i
      let x ← rd bi j
      let bi ← wr bi j (u16 (isar (← iadd (prom x) h1) (EQ - EP)))
      wr b i bi

/-- `indcpa_kem_keypair` (SABER_indcpa.c:14-43); `pk`, `sk` are the objects passed by the caller. Returns `pk`, `sk`, state. -/
def indcpa_kem_keypair {σ : Type} (P : PSet) (rb : RandomBytes σ) (pk sk : List Byte) (st : σ) :
    LM (List Byte × List Byte × σ) := do
  let (seed_A, st) ← random rb (uninit 8 40 SEEDBYTES) 0 SEEDBYTES st
  let seed_A ← shake128 seed_A 0 SEEDBYTES seed_A 0 SEEDBYTES
  let (seed_s, st) ← random rb (uninit 8 41 NOISE_SEEDBYTES) 0 NOISE_SEEDBYTES st
  let A ← GenMatrix P (uninitMat 42 P.L) seed_A 0
  let s ← GenSecret P (uninitVec 43 P.L) seed_s 0
  let b ← MatrixVectorMul P A s (zeroVec P.L) 1
  let b ← roundVec P b
  let sk ← POLVECq2BS P sk 0 s
  let pk ← POLVECp2BS P pk 0 b
  let pk ← memcpy pk P.POLYVECCOMPRESSEDBYTES seed_A 0 SEEDBYTES
  pure (pk, sk, st)

/-- The loop at SABER_indcpa.c:74-77. -/
def encRound (P : PSet) (vp mp : List (BitVec 16)) : LM (List (BitVec 16)) :=
  loop N vp fun j vp => do
    let v ← rd vp j
    let m ← rd mp j
    wr vp j (u16 (isar (← iadd (← isub (prom v) (← ishl (prom m) (EP - 1))) h1) (EP - P.ET)))

/-- `indcpa_kem_enc` (SABER_indcpa.c:45-80); the pointers `m`, `seed_sp`, `pk` point into the given objects at the given offsets. -/
def indcpa_kem_enc (P : PSet) (m : List Byte) (mOff : Nat) (seed_sp : List Byte) (seedOff : Nat) (pk : List Byte) (pkOff : Nat)
    (ciphertext : List Byte) : LM (List Byte) := do
  let A ← GenMatrix P (uninitMat 44 P.L) pk (pkOff + P.POLYVECCOMPRESSEDBYTES)
  let sp ← GenSecret P (uninitVec 45 P.L) seed_sp seedOff
  let bp ← MatrixVectorMul P A sp (zeroVec P.L) 0
  let bp ← roundVec P bp
  let ciphertext ← POLVECp2BS P ciphertext 0 bp
  let b ← BS2POLVECp P pk pkOff (uninitVec 46 P.L)
  let vp ← InnerProd P b sp (List.replicate N 0)
  let mp ← BS2POLmsg m mOff (uninit 16 47 N)
  let vp ← encRound P vp mp
  POLT2BS P ciphertext P.POLYVECCOMPRESSEDBYTES vp

/-- The loop at SABER_indcpa.c:96-99. -/
def decRound (P : PSet) (v cm : List (BitVec 16)) : LM (List (BitVec 16)) :=
  loop N v fun i v => do
    let x ← rd v i
    let c ← rd cm i
    wr v i (u16 (isar (← isub (← iadd (prom x) (h2 P)) (← ishl (prom c) (EP - P.ET))) (EP - 1)))

/-- `indcpa_kem_dec` (SABER_indcpa.c:82-102); `sk` and `ciphertext` point to the start of the given objects; the new content of `m`
is returned. -/
def indcpa_kem_dec (P : PSet) (sk ciphertext m : List Byte) : LM (List Byte) := do
  let s ← BS2POLVECq P sk 0 (uninitVec 48 P.L)
  let b ← BS2POLVECp P ciphertext 0 (uninitVec 49 P.L)
  let v ← InnerProd P b s (List.replicate N 0)
  let cm ← BS2POLT P ciphertext P.POLYVECCOMPRESSEDBYTES (uninit 16 50 N)
  let v ← decRound P v cm
  POLmsg2BS m 0 v

/-! ## Kem -/

/-- `crypto_kem_keypair` (kem.c:12-25).  Returns the return code, `pk`, `sk` and the generator state. -/
def crypto_kem_keypair {σ : Type} (P : PSet) (rb : RandomBytes σ) (pk sk : List Byte) (st : σ) :
    LM (Int × List Byte × List Byte × σ) := do
  let (pk, sk, st) ← indcpa_kem_keypair P rb pk sk st
  let sk ← loop P.INDCPA_PUBLICKEYBYTES sk fun i sk => do
    let v ← rd pk i
    wr sk (i + P.INDCPA_SECRETKEYBYTES) v
  let sk ← sha3_256 sk (P.SECRETKEYBYTES - 64) pk 0 P.INDCPA_PUBLICKEYBYTES
  let (sk, st) ← random rb sk (P.SECRETKEYBYTES - KEYBYTES) KEYBYTES st
  pure (0, pk, sk, st)

/-- `crypto_kem_enc` (kem.c:27-49).  Returns the return code, `c`, `k` and the generator state. -/
def crypto_kem_enc {σ : Type} (P : PSet) (rb : RandomBytes σ) (c k pk : List Byte) (st : σ) :
    LM (Int × List Byte × List Byte × σ) := do
  let kr := uninit 8 60 64
  let buf := uninit 8 61 64
  let (buf, st) ← random rb buf 0 32 st
  let buf ← sha3_256 buf 0 buf 0 32
  let buf ← sha3_256 buf 32 pk 0 P.INDCPA_PUBLICKEYBYTES
  let kr ← sha3_512 kr 0 buf 0 64
  let c ← indcpa_kem_enc P buf 0 kr 32 pk 0 c
  let kr ← sha3_256 kr 32 c 0 P.BYTES_CCA_DEC
  let k ← sha3_256 k 0 kr 0 64
  pure (0, c, k, st)

/-- `crypto_kem_dec` (kem.c:51-78).  Returns the return code and `k`. -/
def crypto_kem_dec (P : PSet) (k c sk : List Byte) : LM (Int × List Byte) := do
  let cmp := uninit 8 62 P.BYTES_CCA_DEC
  let buf := uninit 8 63 64
  let kr := uninit 8 64 64
  let buf ← indcpa_kem_dec P sk c buf
  let buf ← loop 32 buf fun i buf => do
    let v ← rd sk (P.SECRETKEYBYTES - 64 + i)
    wr buf (32 + i) v
  let kr ← sha3_512 kr 0 buf 0 64
  let cmp ← indcpa_kem_enc P buf 0 kr 32 sk P.INDCPA_SECRETKEYBYTES cmp
  let fail ← verify c 0 cmp 0 P.BYTES_CCA_DEC
  let kr ← sha3_256 kr 32 c 0 P.BYTES_CCA_DEC
  let kr ← cmov kr 0 sk (P.SECRETKEYBYTES - KEYBYTES) KEYBYTES (BitVec.ofInt 8 fail)
  let k ← sha3_256 k 0 kr 0 64
  pure (0, k)

end Saber.Leak
