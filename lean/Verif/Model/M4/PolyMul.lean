import Verif.Model.PolyMul
/-!
# `Cortex-M4/src/*/m4-striding/poly_mul.c`

All line numbers refer to that file.
-/
namespace Saber.M4

/-- `toom_cook_4way_*(a, b, res)`: returns the new contents of `b` and `res` (`b` is used as scratch space). -/
abbrev Toom := List (BitVec 16) → List (BitVec 16) → List (BitVec 16) → CM (List (BitVec 16) × List (BitVec 16))

/-- `poly_mul` (lines 12-29, and m4-tc4kara/poly_mul.c:5-19). -/
def poly_mul (toom : Toom) (a b res : List (BitVec 16)) : CM (List (BitVec 16) × List (BitVec 16)) := do
  let res ← memset res 0 0 N
  toom a b res

/-- `poly_mul_acc` (lines 31-45, and m4-tc4kara/poly_mul.c:21-33). -/
def poly_mul_acc (toom : Toom) (a b res : List (BitVec 16)) : CM (List (BitVec 16) × List (BitVec 16)) :=
  toom a b res

/-- The four arrays of 64 coefficients passed to `kara_strd_mem_asm` (poly_mul.h:7). -/
structure K4 where
  (a b res tmp : List (BitVec 16))

/-- `kara_strd_mem_asm(a, b, res, extra_mem)`: the assembly routine, on the contents of the four arrays. -/
abbrev Kara := K4 → CM K4

/-- `&a[off]` passed as an array of 64 elements. -/
def sub64 (a : List (BitVec 16)) (off : Nat) : CM (List (BitVec 16)) :=
  if off + 64 ≤ a.length then .ok ((a.drop off).take 64) else .error .oob

/-- Evaluation of four consecutive coefficients at the seven points (lines 61-77 for `a`, 80-96 for `b`): `r0 .. r3` to
`w1` = `r3`, `w2` at 2, `w3` at 1, `w4` at -1, `w5`, `w6` at 1/2 and -1/2 (scaled), `w7` = `r0`. -/
def evalPt (r0 r1 r2 r3 : BitVec 16) : CM (Ev (BitVec 16)) := do
  let r4 := u16 (← iadd (prom r0) (prom r2))
  let r5 := u16 (← iadd (prom r1) (prom r3))
  let r6 := u16 (← iadd (prom r4) (prom r5))
  let r7 := u16 (← isub (prom r4) (prom r5))
  let w3 := r6
  let w4 := r7
  let r4 := u16 (← ishl (← iadd (← ishl (prom r0) 2) (prom r2)) 1)
  let r5 := u16 (← iadd (← ishl (prom r1) 2) (prom r3))
  let r6 := u16 (← iadd (prom r4) (prom r5))
  let r7 := u16 (← isub (prom r4) (prom r5))
  let w5 := r6
  let w6 := r7
  let r4 := u16 (← iadd (← iadd (← iadd (← ishl (prom r3) 3) (← ishl (prom r2) 2)) (← ishl (prom r1) 1)) (prom r0))
  pure { w1 := r3, w2 := r4, w3 := w3, w4 := w4, w5 := w5, w6 := w6, w7 := r0 }

/-- First evaluation loop (lines 60-78); `stack` has 13*64 elements. -/
def evalA (a stack : List (BitVec 16)) : CM (List (BitVec 16)) :=
  loop 64 stack fun j stack => do
    let r0 ← rd a (4 * j)
    let r1 ← rd a (4 * j + 1)
    let r2 ← rd a (4 * j + 2)
    let r3 ← rd a (4 * j + 3)
    let e ← evalPt r0 r1 r2 r3
    let stack ← wr stack (2 * 64 + j) e.w3
    let stack ← wr stack (3 * 64 + j) e.w4
    let stack ← wr stack (4 * 64 + j) e.w5
    let stack ← wr stack (5 * 64 + j) e.w6
    let stack ← wr stack (64 + j) e.w2
    let stack ← wr stack (6 * 64 + j) e.w7
    wr stack j e.w1

/-- Second evaluation loop (lines 79-97): `b` is overwritten with the coefficients `b[4j+3]`. -/
def evalB (b stack : List (BitVec 16)) : CM (List (BitVec 16) × List (BitVec 16)) :=
  loop 64 (b, stack) fun j (b, stack) => do
    let r0 ← rd b (4 * j)
    let r1 ← rd b (4 * j + 1)
    let r2 ← rd b (4 * j + 2)
    let r3 ← rd b (4 * j + 3)
    let e ← evalPt r0 r1 r2 r3
    let stack ← wr stack (8 * 64 + j) e.w3
    let stack ← wr stack (9 * 64 + j) e.w4
    let stack ← wr stack (10 * 64 + j) e.w5
    let stack ← wr stack (11 * 64 + j) e.w6
    let stack ← wr stack (7 * 64 + j) e.w2
    let stack ← wr stack (12 * 64 + j) e.w7
    let b ← wr b j e.w1
    pure (b, stack)

/-- Line 100: `kara_strd_mem_asm(stack,b,&b[64], &b[128])`. -/
def mul1 (kara : Kara) (b stack : List (BitVec 16)) : CM (List (BitVec 16) × List (BitVec 16)) := do
  let r ← kara ⟨← sub64 stack 0, ← sub64 b 0, ← sub64 b 64, ← sub64 b 128⟩
  pure (writeAt (writeAt (writeAt b 0 r.b) 64 r.res) 128 r.tmp, writeAt stack 0 r.a)

/-- Line 101: `kara_strd_mem_asm(&stack[64],&stack[7*64],b   , &b[128])`. -/
def mul2 (kara : Kara) (b stack : List (BitVec 16)) : CM (List (BitVec 16) × List (BitVec 16)) := do
  let r ← kara ⟨← sub64 stack 64, ← sub64 stack (7 * 64), ← sub64 b 0, ← sub64 b 128⟩
  pure (writeAt (writeAt b 0 r.res) 128 r.tmp, writeAt (writeAt stack 64 r.a) (7 * 64) r.b)

/-- Lines 102-106: `kara_strd_mem_asm(&stack[k*64],&stack[(k+6)*64],&stack[(k+5)*64] , &b[128])` for `k = 2..6`. -/
def mulK (kara : Kara) (k : Nat) (b stack : List (BitVec 16)) : CM (List (BitVec 16) × List (BitVec 16)) := do
  let r ← kara ⟨← sub64 stack (k * 64), ← sub64 stack ((k + 6) * 64), ← sub64 stack ((k + 5) * 64), ← sub64 b 128⟩
  pure (writeAt b 128 r.tmp, writeAt (writeAt (writeAt stack (k * 64) r.a) ((k + 6) * 64) r.b) ((k + 5) * 64) r.res)

/-- How the compiler treats a signed product that leaves `int`. -/
inductive Arith where
  /-- the C standard: undefined behaviour -/
  | strict
  /-- two's complement wrap-around (`-fwrapv`, or what the `mul` instruction computes) -/
  | wrap

/-- `(uint16_t)((t * inv) >> k)` with a signed `t` and an `int` constant `inv` (lines 134, 136, 138). -/
def mulShiftI (m : Arith) (t inv : Int) (k : Nat) : CM (BitVec 16) :=
  match m with
  | .strict => do
    let p ← imul t inv
    pure (u16 (isar p k))
  | .wrap => pure (u16 (isar (BitVec.ofInt 32 (t * inv)).toInt k))

/-- The arithmetic of an interpolation step (lines 123-140). Result: `r6, r5, r4, r3, r2, r1, r0`. -/
def interp (m : Arith) (r0 r1 r2 r3 r4 r5 r6 : BitVec 16) : CM (Ev (BitVec 16)) := do
  let r1 := u16 (← iadd (prom r1) (prom r4))
  let r5 := u16 (← isub (prom r5) (prom r4))
  let r3 := u16 (isar (← isub (prom r3) (prom r2)) 1)
  let r4 := u16 (← isub (prom r4) (prom r0))
  let r4 := u16 (← isub (prom r4) (← ishl (prom r6) 6))
  let r4 := u16 (← iadd (← ishl (prom r4) 1) (prom r5))
  let r2 := u16 (← iadd (prom r2) (prom r3))
  let r1 := u16 (← isub (← isub (prom r1) (← ishl (prom r2) 6)) (prom r2))
  let r2 := u16 (← isub (prom r2) (prom r6))
  let r2 := u16 (← isub (prom r2) (prom r0))
  let r1 := u16 (← iadd (prom r1) (← imul 45 (prom r2)))
  let r4 ← mulShiftI m (← isub (prom r4) (← ishl (prom r2) 3)) 43691 3
  let r5 := u16 (← iadd (prom r5) (prom r1))
  let r1 ← mulShiftI m (← iadd (prom r1) (← ishl (prom r3) 4)) 36409 1
  let r3 := u16 (← isub 0 (← iadd (prom r3) (prom r1)))
  let r5 ← mulShiftI m (← isub (← imul 30 (prom r1)) (prom r5)) 61167 2
  let r2 := u16 (← isub (prom r2) (prom r4))
  let r1 := u16 (← isub (prom r1) (prom r5))
  pure { w1 := r6, w2 := r5, w3 := r4, w4 := r3, w5 := r2, w6 := r1, w7 := r0 }

/-- `res` and the variables `r0`, `r1`, `r2`, which live through the loop. -/
structure IS where
  res : List (BitVec 16)
  (r0 r1 r2 : BitVec 16)

/-- One iteration of the interpolation loop (lines 109-152); `res[..] += r6+r9` adds modulo `2^16`. -/
def interpStep (m : Arith) (b stack : List (BitVec 16)) (i : Nat) (s : IS) : CM IS := do
  let r7 := s.r0
  let r8 := s.r1
  let r9 := s.r2
  let r0 ← rd b (64 + i)
  let r1 ← rd b i
  let r2 ← rd stack (7 * 64 + i)
  let r3 ← rd stack (8 * 64 + i)
  let r4 ← rd stack (9 * 64 + i)
  let r5 ← rd stack (10 * 64 + i)
  let r6 ← rd stack (11 * 64 + i)
  let o ← interp m r0 r1 r2 r3 r4 r5 r6
  let res ← addTo s.res (3 + 4 * i) o.w4
  let res ← addTo res (0 + 4 * i) (if i = 0 then o.w1 else o.w1 + r9)
  let res ← addTo res (1 + 4 * i) (if i = 0 then o.w2 else o.w2 + r8)
  let res ← addTo res (2 + 4 * i) (if i = 0 then o.w3 else o.w3 + r7)
  pure ⟨res, o.w7, o.w6, o.w5⟩

/-- The evaluation loops and the seven multiplications of `toom_cook_4way_striding` (lines 49-106).  Returns `b` and `stack`. -/
def strdProds (kara : Kara) (a b : List (BitVec 16)) : CM (List (BitVec 16) × List (BitVec 16)) := do
  let stack ← evalA a (uninit 16 120 (13 * 64))
  let (b, stack) ← evalB b stack
  let (b, stack) ← mul1 kara b stack
  let (b, stack) ← mul2 kara b stack
  let (b, stack) ← mulK kara 2 b stack
  let (b, stack) ← mulK kara 3 b stack
  let (b, stack) ← mulK kara 4 b stack
  let (b, stack) ← mulK kara 5 b stack
  mulK kara 6 b stack

/-- `toom_cook_4way_striding` (lines 47-156).  Before the interpolation loop `r0`, `r1`, `r2` hold the coefficients `b[252]`, `b[253]`,
`b[254]` of the last evaluation step; the first iteration copies them to `r7`, `r8`, `r9` without using them.
They are modelled as unspecified values. -/
def toom_cook_4way_striding (m : Arith) (kara : Kara) : Toom := fun a b res => do
  let (b, stack) ← strdProds kara a b
  let s ← loop 64 (⟨res, junk 16 121 0, junk 16 121 1, junk 16 121 2⟩ : IS) (interpStep m b stack)
  let x ← rd s.res 0
  let res ← wr s.res 0 (x - s.r2)
  let x ← rd res 1
  let res ← wr res 1 (x - s.r1)
  let x ← rd res 2
  let res ← wr res 2 (x - s.r0)
  pure (b, res)

end Saber.M4
