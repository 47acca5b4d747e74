import Verif.Model.Params
/-!
# `Reference_Implementation_KEM/poly_mul.c`

`uint16_t` sums, differences and products that are immediately stored to a `uint16_t` (or truncated by
`OVERFLOWING_MUL`) are `BitVec 16` operations: the promoted operands are below `2^16`, a sum or difference of two or three of them
is inside `int`, and `OVERFLOWING_MUL` multiplies in `uint32_t`.  All other `int` expressions use the checked operations.
-/
namespace Saber

/-- The arrays updated by `karatsuba_simple` (poly_mul.c:14-18). -/
structure KS where
  /-- `result_final[127]` -/
  rf : List (BitVec 16)
  /-- `d01[31]` -/
  d01 : List (BitVec 16)
  /-- `d0123[31]` -/
  d0123 : List (BitVec 16)
  /-- `d23[31]` -/
  d23 : List (BitVec 16)
  /-- `result_d01[63]` -/
  rd01 : List (BitVec 16)

/-- `KARATSUBA_N` (poly_mul.c:13) -/
abbrev KN : Nat := 64

/-- Body of the inner loop of `karatsuba_simple` (poly_mul.c:38-82). -/
def karaInner (b : List (BitVec 16)) (i : Nat) (acc1 acc2 acc3 acc4 : BitVec 16) (j : Nat) (s : KS) : CM KS := do
  let acc5 ← rd b j
  let acc6 ← rd b (j + KN / 4)
  let rf ← addTo s.rf (i + j + 0 * KN / 4) (acc1 * acc5)
  let rf ← addTo rf (i + j + 2 * KN / 4) (acc2 * acc6)
  let acc7 := acc5 + acc6
  let acc8 := acc1 + acc2
  let d01 ← addTo s.d01 (i + j) (acc7 * acc8)
  let acc7 ← rd b (j + 2 * KN / 4)
  let acc8 ← rd b (j + 3 * KN / 4)
  let rf ← addTo rf (i + j + 4 * KN / 4) (acc7 * acc3)
  let rf ← addTo rf (i + j + 6 * KN / 4) (acc8 * acc4)
  let acc9 := acc3 + acc4
  let acc10 := acc7 + acc8
  let d23 ← addTo s.d23 (i + j) (acc9 * acc10)
  let acc5 := acc5 + acc7
  let acc7 := acc1 + acc3
  let rd01 ← addTo s.rd01 (i + j + 0 * KN / 4) (acc5 * acc7)
  let acc6 := acc6 + acc8
  let acc8 := acc2 + acc4
  let rd01 ← addTo rd01 (i + j + 2 * KN / 4) (acc6 * acc8)
  let acc5 := acc5 + acc6
  let acc7 := acc7 + acc8
  let d0123 ← addTo s.d0123 (i + j) (acc5 * acc7)
  pure ⟨rf, d01, d0123, d23, rd01⟩

/-- First loop nest of `karatsuba_simple` (poly_mul.c:31-84). -/
def karaMul (a b : List (BitVec 16)) (s : KS) : CM KS :=
  loop (KN / 4) s fun i s => do
    let acc1 ← rd a i
    let acc2 ← rd a (i + KN / 4)
    let acc3 ← rd a (i + 2 * KN / 4)
    let acc4 ← rd a (i + 3 * KN / 4)
    loop (KN / 4) s (karaInner b i acc1 acc2 acc3 acc4)

/-- Body of the loop "2nd last stage" (poly_mul.c:88-92). -/
def karaStage1 (i : Nat) (s : KS) : CM KS := do
  let x ← rd s.d0123 i
  let y ← rd s.rd01 (i + 0 * KN / 4)
  let z ← rd s.rd01 (i + 2 * KN / 4)
  let d0123 ← wr s.d0123 i (x - y - z)
  let x ← rd s.d01 i
  let y ← rd s.rf (i + 0 * KN / 4)
  let z ← rd s.rf (i + 2 * KN / 4)
  let d01 ← wr s.d01 i (x - y - z)
  let x ← rd s.d23 i
  let y ← rd s.rf (i + 4 * KN / 4)
  let z ← rd s.rf (i + 6 * KN / 4)
  let d23 ← wr s.d23 i (x - y - z)
  pure { s with d0123 := d0123, d01 := d01, d23 := d23 }

/-- Body of the loop at poly_mul.c:94-98. -/
def karaStage2 (i : Nat) (s : KS) : CM KS := do
  let v ← rd s.d0123 i
  let rd01 ← addTo s.rd01 (i + 1 * KN / 4) v
  let v ← rd s.d01 i
  let rf ← addTo s.rf (i + 1 * KN / 4) v
  let v ← rd s.d23 i
  let rf ← addTo rf (i + 5 * KN / 4) v
  pure { s with rd01 := rd01, rf := rf }

/-- Body of the loop "Last stage" (poly_mul.c:101-103). -/
def karaStage3 (i : Nat) (s : KS) : CM KS := do
  let x ← rd s.rd01 i
  let y ← rd s.rf i
  let z ← rd s.rf (i + KN)
  let rd01 ← wr s.rd01 i (x - y - z)
  pure { s with rd01 := rd01 }

/-- Body of the loop at poly_mul.c:105-107. -/
def karaStage4 (i : Nat) (s : KS) : CM KS := do
  let v ← rd s.rd01 i
  let rf ← addTo s.rf (i + 1 * KN / 2) v
  pure { s with rf := rf }

/-- `karatsuba_simple` (poly_mul.c:14-109).  The four local arrays are declared and then completely cleared
by `memset` (lines 22-25); the new content of `result_final` is returned. -/
def karatsuba_simple (a_1 b_1 result_final : List (BitVec 16)) : CM (List (BitVec 16)) := do
  let rd01 ← memset (uninit 16 1 (KN - 1)) 0 0 (KN - 1)
  let d01 ← memset (uninit 16 2 (KN / 2 - 1)) 0 0 (KN / 2 - 1)
  let d0123 ← memset (uninit 16 3 (KN / 2 - 1)) 0 0 (KN / 2 - 1)
  let d23 ← memset (uninit 16 4 (KN / 2 - 1)) 0 0 (KN / 2 - 1)
  let rf ← memset result_final 0 0 (2 * KN - 1)
  let s ← karaMul a_1 b_1 ⟨rf, d01, d0123, d23, rd01⟩
  let s ← loop (KN / 2 - 1) s karaStage1
  let s ← loop (KN / 2 - 1) s karaStage2
  let s ← loop (KN - 1) s karaStage3
  let s ← loop (KN - 1) s karaStage4
  pure s.rf

/-- `N_SB` (poly_mul.c:8) -/
abbrev N_SB : Nat := N >>> 2
/-- `N_SB_RES` (poly_mul.c:9) -/
abbrev N_SB_RES : Nat := 2 * N_SB - 1

/-- The seven evaluation arrays `aw1..aw7` or `bw1..bw7` (poly_mul.c:116-117), or their values at one index. -/
structure Ev (α : Type) where
  w1 : α
  w2 : α
  w3 : α
  w4 : α
  w5 : α
  w6 : α
  w7 : α

/-- Body of the evaluation loops (poly_mul.c:142-157 and 164-179): values stored at one index. -/
def toomEval (r0 r1 r2 r3 : BitVec 16) : CM (Ev (BitVec 16)) := do
  let r4 := u16 (← iadd (prom r0) (prom r2))
  let r5 := u16 (← iadd (prom r1) (prom r3))
  let r6 := u16 (← iadd (prom r4) (prom r5))
  let r7 := u16 (← isub (prom r4) (prom r5))
  let w3 := r6
  let w4 := r7
  let r4 := u16 (← ishl (← iadd (← ishl (prom r0) 2) (prom r2)) 1)
  let r5 := u16 (← iadd (← ishl (prom r1) 2) (prom r3))
  let r6 := u16 (← iadd (prom r4) (prom r5))
  let r7 := u16 (← isub (prom r4) (prom r5))
  let w5 := r6
  let w6 := r7
  let r4 := u16 (← iadd (← iadd (← iadd (← ishl (prom r3) 3) (← ishl (prom r2) 2)) (← ishl (prom r1) 1)) (prom r0))
  pure { w1 := r3, w2 := r4, w3 := w3, w4 := w4, w5 := w5, w6 := w6, w7 := r0 }

/-- Evaluation loop (poly_mul.c:137-158 for `a1`, 159-180 for `b1`).  `A0..A3` point to the four quarters of the operand
(poly_mul.c:122-129). -/
def toomEvalLoop (a1 : List (BitVec 16)) (s : Ev (List (BitVec 16))) : CM (Ev (List (BitVec 16))) :=
  loop N_SB s fun j s => do
    let r0 ← rd a1 j
    let r1 ← rd a1 (N_SB + j)
    let r2 ← rd a1 (2 * N_SB + j)
    let r3 ← rd a1 (3 * N_SB + j)
    let e ← toomEval r0 r1 r2 r3
    let aw3 ← wr s.w3 j e.w3
    let aw4 ← wr s.w4 j e.w4
    let aw5 ← wr s.w5 j e.w5
    let aw6 ← wr s.w6 j e.w6
    let aw2 ← wr s.w2 j e.w2
    let aw7 ← wr s.w7 j e.w7
    let aw1 ← wr s.w1 j e.w1
    pure { w1 := aw1, w2 := aw2, w3 := aw3, w4 := aw4, w5 := aw5, w6 := aw6, w7 := aw7 }

/-- `inv3`, `inv9`, `inv15` (poly_mul.c:114) -/
def inv3 : BitVec 16 := 43691
@[inherit_doc inv3] def inv9 : BitVec 16 := 36409
@[inherit_doc inv3] def inv15 : BitVec 16 := 61167

/-- `(uint16_t)((t * (uint32_t)inv) >> k)`: the `int` `t` is converted to `uint32_t` (poly_mul.c:213, 215, 217). -/
def mulShift (t : Int) (inv : BitVec 16) (k : Nat) : BitVec 16 :=
  ((u32 t * inv.setWidth 32) >>> k).setWidth 16

/-- Body of the interpolation loop up to the stores (poly_mul.c:202-219). Result: `r6, r5, r4, r3, r2, r1, r0`. -/
def toomInterp (r0 r1 r2 r3 r4 r5 r6 : BitVec 16) : CM (Ev (BitVec 16)) := do
  let r1 := u16 (← iadd (prom r1) (prom r4))
  let r5 := u16 (← isub (prom r5) (prom r4))
  let r3 := u16 (isar (← isub (prom r3) (prom r2)) 1)
  let r4 := u16 (← isub (prom r4) (prom r0))
  let r4 := u16 (← isub (prom r4) (← ishl (prom r6) 6))
  let r4 := u16 (← iadd (← ishl (prom r4) 1) (prom r5))
  let r2 := u16 (← iadd (prom r2) (prom r3))
  let r1 := u16 (← isub (← isub (prom r1) (← ishl (prom r2) 6)) (prom r2))
  let r2 := u16 (← isub (prom r2) (prom r6))
  let r2 := u16 (← isub (prom r2) (prom r0))
  let r1 := u16 (← iadd (prom r1) (← imul 45 (prom r2)))
  let r4 := mulShift (← isub (prom r4) (← ishl (prom r2) 3)) inv3 3
  let r5 := u16 (← iadd (prom r5) (prom r1))
  let r1 := mulShift (← iadd (prom r1) (← ishl (prom r3) 4)) inv9 1
  let r3 := u16 (← isub 0 (← iadd (prom r3) (prom r1)))
  let r5 := mulShift (← isub (← imul 30 (prom r1)) (prom r5)) inv15 2
  let r2 := u16 (← isub (prom r2) (prom r4))
  let r1 := u16 (← isub (prom r1) (prom r5))
  pure { w1 := r6, w2 := r5, w3 := r4, w4 := r3, w5 := r2, w6 := r1, w7 := r0 }

/-- `toom_cook_4way` (poly_mul.c:113-229); the new content of `result` is returned. -/
def toom_cook_4way (a1 b1 result : List (BitVec 16)) : CM (List (BitVec 16)) := do
  let u := fun t => uninit 16 t N_SB
  let aw ← toomEvalLoop a1 ⟨u 5, u 6, u 7, u 8, u 9, u 10, u 11⟩
  let bw ← toomEvalLoop b1 ⟨u 12, u 13, u 14, u 15, u 16, u 17, u 18⟩
  let z := List.replicate N_SB_RES 0
  let w1 ← karatsuba_simple aw.w1 bw.w1 z
  let w2 ← karatsuba_simple aw.w2 bw.w2 z
  let w3 ← karatsuba_simple aw.w3 bw.w3 z
  let w4 ← karatsuba_simple aw.w4 bw.w4 z
  let w5 ← karatsuba_simple aw.w5 bw.w5 z
  let w6 ← karatsuba_simple aw.w6 bw.w6 z
  let w7 ← karatsuba_simple aw.w7 bw.w7 z
  loop N_SB_RES result fun i C => do
    let r0 ← rd w1 i
    let r1 ← rd w2 i
    let r2 ← rd w3 i
    let r3 ← rd w4 i
    let r4 ← rd w5 i
    let r5 ← rd w6 i
    let r6 ← rd w7 i
    let o ← toomInterp r0 r1 r2 r3 r4 r5 r6
    let C ← addTo C i o.w1
    let C ← addTo C (i + 64) o.w2
    let C ← addTo C (i + 128) o.w3
    let C ← addTo C (i + 192) o.w4
    let C ← addTo C (i + 256) o.w5
    let C ← addTo C (i + 320) o.w6
    addTo C (i + 384) o.w7

/-- `poly_mul_acc` (poly_mul.c:232-244): `res += a*b`.  The loop variable is `i = SABER_N + t`. -/
def poly_mul_acc (a b res : List (BitVec 16)) : CM (List (BitVec 16)) := do
  let c ← toom_cook_4way a b (List.replicate (2 * N) 0)
  loop N res fun t res => do
    let i := N + t
    let x ← rd c (i - N)
    let y ← rd c i
    addTo res (i - N) (x - y)

end Saber
