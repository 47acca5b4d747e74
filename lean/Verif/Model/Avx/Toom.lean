import Verif.Model.Avx.Matrix
import Verif.Model.Avx.Scm
/-!
# `AVX_Implementation_KEM/polymul/toom-cook_4way.c`

The sequences of assignments are transcribed by tools/avx2lean.py.  `small_len_avx` is 4, `SCM_SIZE` is 16, `AVX_N1` is 16 (consts.h:3-16).
The loops are unrolled: their bodies are functions of the loop counter.
-/
namespace Saber.Avx

namespace Eval
abbrev r0_avx : Ex := .v 0
abbrev r1_avx : Ex := .v 1
abbrev r2_avx : Ex := .v 2
abbrev r3_avx : Ex := .v 3
abbrev a : Nat → Ex := .ix 0
abbrev a_bucket : Nat → Ex := .ix 1

/-- The Karatsuba evaluation in `batch_64coefficient_multiplications_new` (toom-cook_4way.c:28-157). -/
def batch : List Stmt :=
  [ r0_avx ≔ a 0, r1_avx ≔ a 1, r2_avx ≔ a 2, r3_avx ≔ a 3, a_bucket 0 ≔ r0_avx, a_bucket 1 ≔ r1_avx, a_bucket 2 ≔ r2_avx,
    a_bucket 3 ≔ r3_avx, a_bucket 4 ≔ add r0_avx r1_avx, a_bucket 5 ≔ add r2_avx r3_avx, a_bucket 6 ≔ add r0_avx r2_avx,
    a_bucket 7 ≔ add r1_avx r3_avx, a_bucket 8 ≔ add (a_bucket 6) (a_bucket 7), r0_avx ≔ a 4, r1_avx ≔ a 5, r2_avx ≔ a 6, r3_avx ≔ a 7,
    a_bucket 9 ≔ r0_avx, a_bucket 10 ≔ r1_avx, a_bucket 11 ≔ r2_avx, a_bucket 12 ≔ r3_avx, a_bucket 13 ≔ add r0_avx r1_avx,
    a_bucket 14 ≔ add r2_avx r3_avx, a_bucket 15 ≔ add r0_avx r2_avx, a_bucket 16 ≔ add r1_avx r3_avx,
    a_bucket 17 ≔ add (a_bucket 15) (a_bucket 16), r0_avx ≔ a 8, r1_avx ≔ a 9, r2_avx ≔ a 10, r3_avx ≔ a 11, a_bucket 18 ≔ r0_avx,
    a_bucket 19 ≔ r1_avx, a_bucket 20 ≔ r2_avx, a_bucket 21 ≔ r3_avx, a_bucket 22 ≔ add r0_avx r1_avx, a_bucket 23 ≔ add r2_avx r3_avx,
    a_bucket 24 ≔ add r0_avx r2_avx, a_bucket 25 ≔ add r1_avx r3_avx, a_bucket 26 ≔ add (a_bucket 24) (a_bucket 25), r0_avx ≔ a 12,
    r1_avx ≔ a 13, r2_avx ≔ a 14, r3_avx ≔ a 15, a_bucket 27 ≔ r0_avx, a_bucket 28 ≔ r1_avx, a_bucket 29 ≔ r2_avx, a_bucket 30 ≔ r3_avx,
    a_bucket 31 ≔ add r0_avx r1_avx, a_bucket 32 ≔ add r2_avx r3_avx, a_bucket 33 ≔ add r0_avx r2_avx, a_bucket 34 ≔ add r1_avx r3_avx,
    a_bucket 35 ≔ add (a_bucket 33) (a_bucket 34), r0_avx ≔ a 16, r1_avx ≔ a 17, r2_avx ≔ a 18, r3_avx ≔ a 19, a_bucket 36 ≔ r0_avx,
    a_bucket 37 ≔ r1_avx, a_bucket 38 ≔ r2_avx, a_bucket 39 ≔ r3_avx, a_bucket 40 ≔ add r0_avx r1_avx, a_bucket 41 ≔ add r2_avx r3_avx,
    a_bucket 42 ≔ add r0_avx r2_avx, a_bucket 43 ≔ add r1_avx r3_avx, a_bucket 44 ≔ add (a_bucket 42) (a_bucket 43), r0_avx ≔ a 20,
    r1_avx ≔ a 21, r2_avx ≔ a 22, r3_avx ≔ a 23, a_bucket 45 ≔ r0_avx, a_bucket 46 ≔ r1_avx, a_bucket 47 ≔ r2_avx, a_bucket 48 ≔ r3_avx,
    a_bucket 49 ≔ add r0_avx r1_avx, a_bucket 50 ≔ add r2_avx r3_avx, a_bucket 51 ≔ add r0_avx r2_avx, a_bucket 52 ≔ add r1_avx r3_avx,
    a_bucket 53 ≔ add (a_bucket 51) (a_bucket 52), r0_avx ≔ a 24, r1_avx ≔ a 25, r2_avx ≔ a 26, r3_avx ≔ a 27, a_bucket 54 ≔ r0_avx,
    a_bucket 55 ≔ r1_avx, a_bucket 56 ≔ r2_avx, a_bucket 57 ≔ r3_avx, a_bucket 58 ≔ add r0_avx r1_avx, a_bucket 59 ≔ add r2_avx r3_avx,
    a_bucket 60 ≔ add r0_avx r2_avx, a_bucket 61 ≔ add r1_avx r3_avx, a_bucket 62 ≔ add (a_bucket 60) (a_bucket 61) ]
end Eval

namespace KEval
abbrev r0_avx : Ex := .v 0
abbrev r1_avx : Ex := .v 1
abbrev r2_avx : Ex := .v 2
abbrev r3_avx : Ex := .v 3
abbrev b : Nat → Ex := .ix 0
abbrev b_bucket : Nat → Ex := .ix 1

/-- The evaluation in `KARA_eval` (toom-cook_4way.c:228-334). -/
def body : List Stmt :=
  [ r0_avx ≔ b 0, r1_avx ≔ b 1, r2_avx ≔ b 2, r3_avx ≔ b 3, b_bucket 0 ≔ r0_avx, b_bucket 1 ≔ r1_avx, b_bucket 2 ≔ r2_avx,
    b_bucket 3 ≔ r3_avx, b_bucket 4 ≔ add r0_avx r1_avx, b_bucket 5 ≔ add r2_avx r3_avx, b_bucket 6 ≔ add r0_avx r2_avx,
    b_bucket 7 ≔ add r1_avx r3_avx, b_bucket 8 ≔ add (b_bucket 6) (b_bucket 7), r0_avx ≔ b 4, r1_avx ≔ b 5, r2_avx ≔ b 6, r3_avx ≔ b 7,
    b_bucket 9 ≔ r0_avx, b_bucket 10 ≔ r1_avx, b_bucket 11 ≔ r2_avx, b_bucket 12 ≔ r3_avx, b_bucket 13 ≔ add r0_avx r1_avx,
    b_bucket 14 ≔ add r2_avx r3_avx, b_bucket 15 ≔ add r0_avx r2_avx, b_bucket 16 ≔ add r1_avx r3_avx,
    b_bucket 17 ≔ add (b_bucket 15) (b_bucket 16), r0_avx ≔ b 8, r1_avx ≔ b 9, r2_avx ≔ b 10, r3_avx ≔ b 11, b_bucket 18 ≔ r0_avx,
    b_bucket 19 ≔ r1_avx, b_bucket 20 ≔ r2_avx, b_bucket 21 ≔ r3_avx, b_bucket 22 ≔ add r0_avx r1_avx, b_bucket 23 ≔ add r2_avx r3_avx,
    b_bucket 24 ≔ add r0_avx r2_avx, b_bucket 25 ≔ add r1_avx r3_avx, b_bucket 26 ≔ add (b_bucket 24) (b_bucket 25), r0_avx ≔ b 12,
    r1_avx ≔ b 13, r2_avx ≔ b 14, r3_avx ≔ b 15, b_bucket 27 ≔ r0_avx, b_bucket 28 ≔ r1_avx, b_bucket 29 ≔ r2_avx, b_bucket 30 ≔ r3_avx,
    b_bucket 31 ≔ add r0_avx r1_avx, b_bucket 32 ≔ add r2_avx r3_avx, b_bucket 33 ≔ add r0_avx r2_avx, b_bucket 34 ≔ add r1_avx r3_avx,
    b_bucket 35 ≔ add (b_bucket 33) (b_bucket 34), r0_avx ≔ b 16, r1_avx ≔ b 17, r2_avx ≔ b 18, r3_avx ≔ b 19, b_bucket 36 ≔ r0_avx,
    b_bucket 37 ≔ r1_avx, b_bucket 38 ≔ r2_avx, b_bucket 39 ≔ r3_avx, b_bucket 40 ≔ add r0_avx r1_avx, b_bucket 41 ≔ add r2_avx r3_avx,
    b_bucket 42 ≔ add r0_avx r2_avx, b_bucket 43 ≔ add r1_avx r3_avx, b_bucket 44 ≔ add (b_bucket 42) (b_bucket 43), r0_avx ≔ b 20,
    r1_avx ≔ b 21, r2_avx ≔ b 22, r3_avx ≔ b 23, b_bucket 45 ≔ r0_avx, b_bucket 46 ≔ r1_avx, b_bucket 47 ≔ r2_avx, b_bucket 48 ≔ r3_avx,
    b_bucket 49 ≔ add r0_avx r1_avx, b_bucket 50 ≔ add r2_avx r3_avx, b_bucket 51 ≔ add r0_avx r2_avx, b_bucket 52 ≔ add r1_avx r3_avx,
    b_bucket 53 ≔ add (b_bucket 51) (b_bucket 52), r0_avx ≔ b 24, r1_avx ≔ b 25, r2_avx ≔ b 26, r3_avx ≔ b 27, b_bucket 54 ≔ r0_avx,
    b_bucket 55 ≔ r1_avx, b_bucket 56 ≔ r2_avx, b_bucket 57 ≔ r3_avx, b_bucket 58 ≔ add r0_avx r1_avx, b_bucket 59 ≔ add r2_avx r3_avx,
    b_bucket 60 ≔ add r0_avx r2_avx, b_bucket 61 ≔ add r1_avx r3_avx, b_bucket 62 ≔ add (b_bucket 60) (b_bucket 61) ]
end KEval

/-- The calls `transpose_n1(m); transpose_n1(m+16); ...`, `n` times (toom-cook_4way.c:170-173, 338-341 and 929-939). -/
def transposes (n : Nat) (m : List Vec) : CM (List Vec) :=
  loop n m fun i m => onSlice m (16 * i) transpose_n1

/-- `batch_64coefficient_multiplications_new` (toom-cook_4way.c:16-220); the new content of `c_bucket` is returned. -/
def batch_64coefficient_multiplications_new (a b_bucket c_bucket : List Vec) (f : Nat) : CM (List Vec) := do
  let r ← run 4 [a, uninitVecs 91 64] Eval.batch
  let a_bucket ← rd r 1
  let a_bucket ← transposes 4 a_bucket
  if f = 0 then
    let c_bucket ← onSlice c_bucket 0 fun c => schoolbook_avx_new2 a_bucket b_bucket c
    let c_bucket ← onSlice c_bucket 32 fun c => schoolbook_avx_new2 (a_bucket.drop 16) (b_bucket.drop 16) c
    let c_bucket ← onSlice c_bucket 64 fun c => schoolbook_avx_new2 (a_bucket.drop 32) (b_bucket.drop 32) c
    onSlice c_bucket 96 fun c => schoolbook_avx_new2 (a_bucket.drop 48) (b_bucket.drop 48) c
  else
    let c_bucket ← onSlice c_bucket 0 fun c => schoolbook_avx_new3_acc a_bucket b_bucket c
    let c_bucket ← onSlice c_bucket 32 fun c => schoolbook_avx_new3_acc (a_bucket.drop 16) (b_bucket.drop 16) c
    let c_bucket ← onSlice c_bucket 64 fun c => schoolbook_avx_new3_acc (a_bucket.drop 32) (b_bucket.drop 32) c
    onSlice c_bucket 96 fun c => schoolbook_avx_new3_acc (a_bucket.drop 48) (b_bucket.drop 48) c

/-- `KARA_eval` (toom-cook_4way.c:222-342); the new content of `b_bucket` is returned. -/
def KARA_eval (b b_bucket : List Vec) : CM (List Vec) := do
  let r ← run 4 [b, b_bucket] KEval.body
  let b_bucket ← rd r 1
  transposes 4 b_bucket

namespace KInterpol
abbrev res_avx0 : Ex := .v 0
abbrev res_avx1 : Ex := .v 1
abbrev res_avx2 : Ex := .v 2
abbrev res_avx3 : Ex := .v 3
abbrev res_avx4 : Ex := .v 4
abbrev res_avx5 : Ex := .v 5
abbrev res_avx6 : Ex := .v 6
abbrev res_avx7 : Ex := .v 7
abbrev temp : Ex := .v 8
abbrev c6_avx : Ex := .v 9
abbrev c7_avx : Ex := .v 10
abbrev c8_avx : Ex := .v 11
abbrev c20_avx : Ex := .v 12
abbrev c21_avx : Ex := .v 13
abbrev c22_avx : Ex := .v 14
abbrev c23_avx : Ex := .v 15
abbrev c24_avx : Ex := .v 16
abbrev c_bucket : Nat → Ex := .ix 0
abbrev result_final0 : Nat → Ex := .ix 1
abbrev result_final1 : Nat → Ex := .ix 2
abbrev result_final2 : Nat → Ex := .ix 3
abbrev result_final3 : Nat → Ex := .ix 4
abbrev result_final4 : Nat → Ex := .ix 5
abbrev result_final5 : Nat → Ex := .ix 6
abbrev result_final6 : Nat → Ex := .ix 7

/-- The body of `KARA_interpol` (toom-cook_4way.c:344-825). -/
def body : List Stmt :=
  [ res_avx0 ≔ c_bucket 0, res_avx2 ≔ c_bucket 1, res_avx4 ≔ c_bucket 2, res_avx6 ≔ c_bucket 3, c6_avx ≔ c_bucket 6, c7_avx ≔ c_bucket 7,
    c8_avx ≔ sub (sub (c_bucket 8) c6_avx) c7_avx, res_avx1 ≔ c_bucket 16, res_avx3 ≔ c_bucket 17, res_avx5 ≔ c_bucket 18,
    res_avx7 ≔ c_bucket 19, c22_avx ≔ c_bucket 22, c23_avx ≔ c_bucket 23, c21_avx ≔ sub (sub (c_bucket 21) res_avx5) res_avx7,
    c24_avx ≔ sub (sub (c_bucket 24) c22_avx) c23_avx, c20_avx ≔ sub (sub (c_bucket 20) res_avx1) res_avx3,
    temp ≔ sub (sub (c_bucket 5) res_avx4) res_avx6, res_avx5 ≔ add res_avx5 temp, temp ≔ sub (sub (c_bucket 4) res_avx0) res_avx2,
    res_avx1 ≔ add res_avx1 temp, c22_avx ≔ add c22_avx c8_avx, res_avx6 ≔ add res_avx6 c21_avx, res_avx2 ≔ add res_avx2 c20_avx,
    c7_avx ≔ add c7_avx c24_avx, c6_avx ≔ sub (sub c6_avx res_avx0) res_avx4, c22_avx ≔ sub (sub c22_avx res_avx1) res_avx5,
    c7_avx ≔ sub (sub c7_avx res_avx2) res_avx6, c23_avx ≔ sub (sub c23_avx res_avx3) res_avx7, result_final0 0 ≔ res_avx0,
    result_final0 1 ≔ res_avx1, result_final0 2 ≔ add res_avx2 c6_avx, result_final0 3 ≔ add res_avx3 c22_avx,
    result_final0 4 ≔ add res_avx4 c7_avx, result_final0 5 ≔ add res_avx5 c23_avx, result_final0 6 ≔ res_avx6, result_final0 7 ≔ res_avx7,
    res_avx0 ≔ c_bucket 9, res_avx2 ≔ c_bucket 10, res_avx4 ≔ c_bucket 11, res_avx6 ≔ c_bucket 12, c6_avx ≔ c_bucket 15, c7_avx ≔ c_bucket 32,
    c8_avx ≔ sub (sub (c_bucket 33) c6_avx) c7_avx, res_avx1 ≔ c_bucket 25, res_avx3 ≔ c_bucket 26, res_avx5 ≔ c_bucket 27,
    res_avx7 ≔ c_bucket 28, c22_avx ≔ c_bucket 31, c23_avx ≔ c_bucket 48, c21_avx ≔ sub (sub (c_bucket 30) res_avx5) res_avx7,
    c24_avx ≔ sub (sub (c_bucket 49) c22_avx) c23_avx, c20_avx ≔ sub (sub (c_bucket 29) res_avx1) res_avx3,
    temp ≔ sub (sub (c_bucket 14) res_avx4) res_avx6, res_avx5 ≔ add res_avx5 temp, temp ≔ sub (sub (c_bucket 13) res_avx0) res_avx2,
    res_avx1 ≔ add res_avx1 temp, c22_avx ≔ add c22_avx c8_avx, res_avx6 ≔ add res_avx6 c21_avx, res_avx2 ≔ add res_avx2 c20_avx,
    c7_avx ≔ add c7_avx c24_avx, c6_avx ≔ sub (sub c6_avx res_avx0) res_avx4, c22_avx ≔ sub (sub c22_avx res_avx1) res_avx5,
    c7_avx ≔ sub (sub c7_avx res_avx2) res_avx6, c23_avx ≔ sub (sub c23_avx res_avx3) res_avx7, result_final1 0 ≔ res_avx0,
    result_final1 1 ≔ res_avx1, result_final1 2 ≔ add res_avx2 c6_avx, result_final1 3 ≔ add res_avx3 c22_avx,
    result_final1 4 ≔ add res_avx4 c7_avx, result_final1 5 ≔ add res_avx5 c23_avx, result_final1 6 ≔ res_avx6, result_final1 7 ≔ res_avx7,
    res_avx0 ≔ c_bucket 34, res_avx2 ≔ c_bucket 35, res_avx4 ≔ c_bucket 36, res_avx6 ≔ c_bucket 37, c6_avx ≔ c_bucket 40,
    c7_avx ≔ c_bucket 41, c8_avx ≔ sub (sub (c_bucket 42) c6_avx) c7_avx, res_avx1 ≔ c_bucket 50, res_avx3 ≔ c_bucket 51,
    res_avx5 ≔ c_bucket 52, res_avx7 ≔ c_bucket 53, c22_avx ≔ c_bucket 56, c23_avx ≔ c_bucket 57,
    c21_avx ≔ sub (sub (c_bucket 55) res_avx5) res_avx7, c24_avx ≔ sub (sub (c_bucket 58) c22_avx) c23_avx,
    c20_avx ≔ sub (sub (c_bucket 54) res_avx1) res_avx3, temp ≔ sub (sub (c_bucket 39) res_avx4) res_avx6, res_avx5 ≔ add res_avx5 temp,
    temp ≔ sub (sub (c_bucket 38) res_avx0) res_avx2, res_avx1 ≔ add res_avx1 temp, c22_avx ≔ add c22_avx c8_avx,
    res_avx6 ≔ add res_avx6 c21_avx, res_avx2 ≔ add res_avx2 c20_avx, c7_avx ≔ add c7_avx c24_avx,
    c6_avx ≔ sub (sub c6_avx res_avx0) res_avx4, c22_avx ≔ sub (sub c22_avx res_avx1) res_avx5, c7_avx ≔ sub (sub c7_avx res_avx2) res_avx6,
    c23_avx ≔ sub (sub c23_avx res_avx3) res_avx7, result_final2 0 ≔ res_avx0, result_final2 1 ≔ res_avx1,
    result_final2 2 ≔ add res_avx2 c6_avx, result_final2 3 ≔ add res_avx3 c22_avx, result_final2 4 ≔ add res_avx4 c7_avx,
    result_final2 5 ≔ add res_avx5 c23_avx, result_final2 6 ≔ res_avx6, result_final2 7 ≔ res_avx7, res_avx0 ≔ c_bucket 43,
    res_avx2 ≔ c_bucket 44, res_avx4 ≔ c_bucket 45, res_avx6 ≔ c_bucket 46, c6_avx ≔ c_bucket 65, c7_avx ≔ c_bucket 66,
    c8_avx ≔ sub (sub (c_bucket 67) c6_avx) c7_avx, res_avx1 ≔ c_bucket 59, res_avx3 ≔ c_bucket 60, res_avx5 ≔ c_bucket 61,
    res_avx7 ≔ c_bucket 62, c22_avx ≔ c_bucket 81, c23_avx ≔ c_bucket 82, c21_avx ≔ sub (sub (c_bucket 80) res_avx5) res_avx7,
    c24_avx ≔ sub (sub (c_bucket 83) c22_avx) c23_avx, c20_avx ≔ sub (sub (c_bucket 63) res_avx1) res_avx3,
    temp ≔ sub (sub (c_bucket 64) res_avx4) res_avx6, res_avx5 ≔ add res_avx5 temp, temp ≔ sub (sub (c_bucket 47) res_avx0) res_avx2,
    res_avx1 ≔ add res_avx1 temp, c22_avx ≔ add c22_avx c8_avx, res_avx6 ≔ add res_avx6 c21_avx, res_avx2 ≔ add res_avx2 c20_avx,
    c7_avx ≔ add c7_avx c24_avx, c6_avx ≔ sub (sub c6_avx res_avx0) res_avx4, c22_avx ≔ sub (sub c22_avx res_avx1) res_avx5,
    c7_avx ≔ sub (sub c7_avx res_avx2) res_avx6, c23_avx ≔ sub (sub c23_avx res_avx3) res_avx7, result_final3 0 ≔ res_avx0,
    result_final3 1 ≔ res_avx1, result_final3 2 ≔ add res_avx2 c6_avx, result_final3 3 ≔ add res_avx3 c22_avx,
    result_final3 4 ≔ add res_avx4 c7_avx, result_final3 5 ≔ add res_avx5 c23_avx, result_final3 6 ≔ res_avx6, result_final3 7 ≔ res_avx7,
    res_avx0 ≔ c_bucket 68, res_avx2 ≔ c_bucket 69, res_avx4 ≔ c_bucket 70, res_avx6 ≔ c_bucket 71, c6_avx ≔ c_bucket 74,
    c7_avx ≔ c_bucket 75, c8_avx ≔ sub (sub (c_bucket 76) c6_avx) c7_avx, res_avx1 ≔ c_bucket 84, res_avx3 ≔ c_bucket 85,
    res_avx5 ≔ c_bucket 86, res_avx7 ≔ c_bucket 87, c22_avx ≔ c_bucket 90, c23_avx ≔ c_bucket 91,
    c21_avx ≔ sub (sub (c_bucket 89) res_avx5) res_avx7, c24_avx ≔ sub (sub (c_bucket 92) c22_avx) c23_avx,
    c20_avx ≔ sub (sub (c_bucket 88) res_avx1) res_avx3, temp ≔ sub (sub (c_bucket 73) res_avx4) res_avx6, res_avx5 ≔ add res_avx5 temp,
    temp ≔ sub (sub (c_bucket 72) res_avx0) res_avx2, res_avx1 ≔ add res_avx1 temp, c22_avx ≔ add c22_avx c8_avx,
    res_avx6 ≔ add res_avx6 c21_avx, res_avx2 ≔ add res_avx2 c20_avx, c7_avx ≔ add c7_avx c24_avx,
    c6_avx ≔ sub (sub c6_avx res_avx0) res_avx4, c22_avx ≔ sub (sub c22_avx res_avx1) res_avx5, c7_avx ≔ sub (sub c7_avx res_avx2) res_avx6,
    c23_avx ≔ sub (sub c23_avx res_avx3) res_avx7, result_final4 0 ≔ res_avx0, result_final4 1 ≔ res_avx1,
    result_final4 2 ≔ add res_avx2 c6_avx, result_final4 3 ≔ add res_avx3 c22_avx, result_final4 4 ≔ add res_avx4 c7_avx,
    result_final4 5 ≔ add res_avx5 c23_avx, result_final4 6 ≔ res_avx6, result_final4 7 ≔ res_avx7, res_avx0 ≔ c_bucket 77,
    res_avx2 ≔ c_bucket 78, res_avx4 ≔ c_bucket 79, res_avx6 ≔ c_bucket 96, c6_avx ≔ c_bucket 99, c7_avx ≔ c_bucket 100,
    c8_avx ≔ sub (sub (c_bucket 101) c6_avx) c7_avx, res_avx1 ≔ c_bucket 93, res_avx3 ≔ c_bucket 94, res_avx5 ≔ c_bucket 95,
    res_avx7 ≔ c_bucket 112, c22_avx ≔ c_bucket 115, c23_avx ≔ c_bucket 116, c21_avx ≔ sub (sub (c_bucket 114) res_avx5) res_avx7,
    c24_avx ≔ sub (sub (c_bucket 117) c22_avx) c23_avx, c20_avx ≔ sub (sub (c_bucket 113) res_avx1) res_avx3,
    temp ≔ sub (sub (c_bucket 98) res_avx4) res_avx6, res_avx5 ≔ add res_avx5 temp, temp ≔ sub (sub (c_bucket 97) res_avx0) res_avx2,
    res_avx1 ≔ add res_avx1 temp, c22_avx ≔ add c22_avx c8_avx, res_avx6 ≔ add res_avx6 c21_avx, res_avx2 ≔ add res_avx2 c20_avx,
    c7_avx ≔ add c7_avx c24_avx, c6_avx ≔ sub (sub c6_avx res_avx0) res_avx4, c22_avx ≔ sub (sub c22_avx res_avx1) res_avx5,
    c7_avx ≔ sub (sub c7_avx res_avx2) res_avx6, c23_avx ≔ sub (sub c23_avx res_avx3) res_avx7, result_final5 0 ≔ res_avx0,
    result_final5 1 ≔ res_avx1, result_final5 2 ≔ add res_avx2 c6_avx, result_final5 3 ≔ add res_avx3 c22_avx,
    result_final5 4 ≔ add res_avx4 c7_avx, result_final5 5 ≔ add res_avx5 c23_avx, result_final5 6 ≔ res_avx6, result_final5 7 ≔ res_avx7,
    res_avx0 ≔ c_bucket 102, res_avx2 ≔ c_bucket 103, res_avx4 ≔ c_bucket 104, res_avx6 ≔ c_bucket 105, c6_avx ≔ c_bucket 108,
    c7_avx ≔ c_bucket 109, c8_avx ≔ sub (sub (c_bucket 110) c6_avx) c7_avx, res_avx1 ≔ c_bucket 118, res_avx3 ≔ c_bucket 119,
    res_avx5 ≔ c_bucket 120, res_avx7 ≔ c_bucket 121, c22_avx ≔ c_bucket 124, c23_avx ≔ c_bucket 125,
    c21_avx ≔ sub (sub (c_bucket 123) res_avx5) res_avx7, c24_avx ≔ sub (sub (c_bucket 126) c22_avx) c23_avx,
    c20_avx ≔ sub (sub (c_bucket 122) res_avx1) res_avx3, temp ≔ sub (sub (c_bucket 107) res_avx4) res_avx6, res_avx5 ≔ add res_avx5 temp,
    temp ≔ sub (sub (c_bucket 106) res_avx0) res_avx2, res_avx1 ≔ add res_avx1 temp, c22_avx ≔ add c22_avx c8_avx,
    res_avx6 ≔ add res_avx6 c21_avx, res_avx2 ≔ add res_avx2 c20_avx, c7_avx ≔ add c7_avx c24_avx,
    c6_avx ≔ sub (sub c6_avx res_avx0) res_avx4, c22_avx ≔ sub (sub c22_avx res_avx1) res_avx5, c7_avx ≔ sub (sub c7_avx res_avx2) res_avx6,
    c23_avx ≔ sub (sub c23_avx res_avx3) res_avx7, result_final6 0 ≔ res_avx0, result_final6 1 ≔ res_avx1,
    result_final6 2 ≔ add res_avx2 c6_avx, result_final6 3 ≔ add res_avx3 c22_avx, result_final6 4 ≔ add res_avx4 c7_avx,
    result_final6 5 ≔ add res_avx5 c23_avx, result_final6 6 ≔ res_avx6, result_final6 7 ≔ res_avx7 ]
end KInterpol

/-- `KARA_interpol` (toom-cook_4way.c:344-825); `w` are the arrays `result_final0`, ..., `result_final6`, whose new contents are returned. -/
def KARA_interpol (c_bucket : List Vec) (w : List (List Vec)) : CM (List (List Vec)) := do
  let r ← run 17 (c_bucket :: w) KInterpol.body
  .ok r.tail

namespace TEval
abbrev r0_avx : Ex := .v 0
abbrev r1_avx : Ex := .v 1
abbrev r2_avx : Ex := .v 2
abbrev r3_avx : Ex := .v 3
abbrev r4_avx : Ex := .v 4
abbrev r5_avx : Ex := .v 5
abbrev r6_avx : Ex := .v 6
abbrev a_avx : Nat → Ex := .ix 0
abbrev aw_avx : Nat → Ex := .ix 1

/-- The body of the loop in `toom_cook_4way_avx_n1` (toom-cook_4way.c:844-866). -/
def step (i : Nat) : List Stmt :=
  [ r0_avx ≔ a_avx (i), r1_avx ≔ a_avx (i + 4), r2_avx ≔ a_avx (i + 2 * 4), r3_avx ≔ a_avx (i + 3 * 4), r4_avx ≔ add r0_avx r2_avx,
    r5_avx ≔ add r1_avx r3_avx, aw_avx (2 * 4 + i) ≔ add r4_avx r5_avx, aw_avx (3 * 4 + i) ≔ sub r4_avx r5_avx, r4_avx ≔ slli r0_avx 2,
    r4_avx ≔ add r4_avx r2_avx, r4_avx ≔ slli r4_avx 1, r5_avx ≔ slli r1_avx 2, r5_avx ≔ add r5_avx r3_avx,
    aw_avx (4 * 4 + i) ≔ add r4_avx r5_avx, aw_avx (5 * 4 + i) ≔ sub r4_avx r5_avx, r4_avx ≔ slli r3_avx 3, r6_avx ≔ slli r2_avx 2,
    r4_avx ≔ add r4_avx r6_avx, r6_avx ≔ slli r1_avx 1, r4_avx ≔ add r4_avx r6_avx, aw_avx (4 + i) ≔ add r4_avx r0_avx,
    aw_avx (6 * 4 + i) ≔ r0_avx, aw_avx (i) ≔ r3_avx ]

/-- The loop in `toom_cook_4way_avx_n1` (toom-cook_4way.c:843-867). -/
def body : List Stmt := (List.range 4).flatMap step
end TEval

/-- `toom_cook_4way_avx_n1` (toom-cook_4way.c:827-875); the new content of `c_bucket` is returned. -/
def toom_cook_4way_avx_n1 (a_avx b_bucket c_bucket : List Vec) (f : Nat) : CM (List Vec) := do
  let r ← run 7 [a_avx, uninitVecs 92 28] TEval.body
  let aw_avx ← rd r 1
  batch_64coefficient_multiplications_new aw_avx b_bucket c_bucket f

namespace TEvalB
abbrev r0_avx : Ex := .v 0
abbrev r1_avx : Ex := .v 1
abbrev r2_avx : Ex := .v 2
abbrev r3_avx : Ex := .v 3
abbrev r4_avx : Ex := .v 4
abbrev r5_avx : Ex := .v 5
abbrev r6_avx : Ex := .v 6
abbrev b_avx : Nat → Ex := .ix 0
abbrev bw_avx : Nat → Ex := .ix 1

/-- The body of the loop in `TC_eval` (toom-cook_4way.c:886-908). -/
def step (i : Nat) : List Stmt :=
  [ r0_avx ≔ b_avx (i), r1_avx ≔ b_avx (i + 4), r2_avx ≔ b_avx (i + 2 * 4), r3_avx ≔ b_avx (i + 3 * 4), r4_avx ≔ add r0_avx r2_avx,
    r5_avx ≔ add r1_avx r3_avx, bw_avx (2 * 4 + i) ≔ add r4_avx r5_avx, bw_avx (3 * 4 + i) ≔ sub r4_avx r5_avx, r4_avx ≔ slli r0_avx 2,
    r4_avx ≔ add r4_avx r2_avx, r4_avx ≔ slli r4_avx 1, r5_avx ≔ slli r1_avx 2, r5_avx ≔ add r5_avx r3_avx,
    bw_avx (4 * 4 + i) ≔ add r4_avx r5_avx, bw_avx (5 * 4 + i) ≔ sub r4_avx r5_avx, r4_avx ≔ slli r3_avx 3, r6_avx ≔ slli r2_avx 2,
    r4_avx ≔ add r4_avx r6_avx, r6_avx ≔ slli r1_avx 1, r4_avx ≔ add r4_avx r6_avx, bw_avx (4 + i) ≔ add r4_avx r0_avx,
    bw_avx (6 * 4 + i) ≔ r0_avx, bw_avx (i) ≔ r3_avx ]

/-- The loop in `TC_eval` (toom-cook_4way.c:884-909). -/
def body : List Stmt := (List.range 4).flatMap step
end TEvalB

/-- `TC_eval` (toom-cook_4way.c:877-913); the new content of `b_bucket` is returned. -/
def TC_eval (b_avx b_bucket : List Vec) : CM (List Vec) := do
  let r ← run 7 [b_avx, uninitVecs 93 28] TEvalB.body
  let bw_avx ← rd r 1
  KARA_eval bw_avx b_bucket

namespace TInterpol
abbrev r0_avx : Ex := .v 0
abbrev r1_avx : Ex := .v 1
abbrev r2_avx : Ex := .v 2
abbrev r3_avx : Ex := .v 3
abbrev r4_avx : Ex := .v 4
abbrev r5_avx : Ex := .v 5
abbrev r6_avx : Ex := .v 6
abbrev temp_avx : Ex := .v 7
abbrev w1_avx : Nat → Ex := .ix 0
abbrev w2_avx : Nat → Ex := .ix 1
abbrev w3_avx : Nat → Ex := .ix 2
abbrev w4_avx : Nat → Ex := .ix 3
abbrev w5_avx : Nat → Ex := .ix 4
abbrev w6_avx : Nat → Ex := .ix 5
abbrev w7_avx : Nat → Ex := .ix 6
abbrev res_avx_output : Nat → Ex := .ix 7
abbrev res_avx : Nat → Ex := .ix 8

/-- `int45_avx` after `load_values` (SABER_indcpa.c:40-71) -/
abbrev int45_avx : Ex := .set1 45
/-- `inv3_avx` after `load_values` (SABER_indcpa.c:40-71) -/
abbrev inv3_avx : Ex := .set1 43691
/-- `inv9_avx` after `load_values` (SABER_indcpa.c:40-71) -/
abbrev inv9_avx : Ex := .set1 36409
/-- `int30_avx` after `load_values` (SABER_indcpa.c:40-71) -/
abbrev int30_avx : Ex := .set1 30
/-- `inv15_avx` after `load_values` (SABER_indcpa.c:40-71) -/
abbrev inv15_avx : Ex := .set1 61167
/-- `int0_avx` after `load_values` (SABER_indcpa.c:40-71) -/
abbrev int0_avx : Ex := .set1 0

/-- The body of the loop in `TC_interpol` (toom-cook_4way.c:946-1006), for `i < small_len_avx` and for larger `i`. -/
def step (i : Nat) : List Stmt :=
  [ r0_avx ≔ w1_avx (i), r1_avx ≔ w2_avx (i), r2_avx ≔ w3_avx (i), r3_avx ≔ w4_avx (i), r4_avx ≔ w5_avx (i), r5_avx ≔ w6_avx (i),
    r6_avx ≔ w7_avx (i), r1_avx ≔ add r1_avx r4_avx, r5_avx ≔ sub r5_avx r4_avx, r3_avx ≔ sub r3_avx r2_avx, r3_avx ≔ srli r3_avx 1,
    r4_avx ≔ sub r4_avx r0_avx, temp_avx ≔ slli r6_avx 6, r4_avx ≔ sub r4_avx temp_avx, r4_avx ≔ slli r4_avx 1, r4_avx ≔ add r4_avx r5_avx,
    r2_avx ≔ add r2_avx r3_avx, temp_avx ≔ slli r2_avx 6, r1_avx ≔ sub r1_avx temp_avx, r1_avx ≔ sub r1_avx r2_avx,
    r2_avx ≔ sub r2_avx r6_avx, r2_avx ≔ sub r2_avx r0_avx, temp_avx ≔ mullo r2_avx int45_avx, r1_avx ≔ add r1_avx temp_avx,
    temp_avx ≔ slli r2_avx 3, r4_avx ≔ sub r4_avx temp_avx, r4_avx ≔ mullo r4_avx inv3_avx, r4_avx ≔ srli r4_avx 3,
    r5_avx ≔ add r5_avx r1_avx, temp_avx ≔ slli r3_avx 4, r1_avx ≔ add r1_avx temp_avx, r1_avx ≔ mullo r1_avx inv9_avx,
    r1_avx ≔ srli r1_avx 1, r3_avx ≔ add r1_avx r3_avx, r3_avx ≔ sub int0_avx r3_avx, temp_avx ≔ mullo r1_avx int30_avx,
    temp_avx ≔ sub temp_avx r5_avx, temp_avx ≔ mullo temp_avx inv15_avx, r5_avx ≔ srli temp_avx 2, r2_avx ≔ sub r2_avx r4_avx,
    r1_avx ≔ sub r1_avx r5_avx ] ++
  if i < 4 then
    [ res_avx_output (0 * 4 + i) ≔ r6_avx, res_avx_output (1 * 4 + i) ≔ r5_avx, res_avx_output (2 * 4 + i) ≔ r4_avx,
      res_avx_output (3 * 4 + i) ≔ r3_avx, res_avx_output (4 * 4 + i) ≔ r2_avx, res_avx_output (5 * 4 + i) ≔ r1_avx,
      res_avx_output (6 * 4 + i) ≔ r0_avx ]
  else
    [ res_avx_output (0 * 4 + i) ≔ add (res_avx_output (0 * 4 + i)) r6_avx,
      res_avx_output (1 * 4 + i) ≔ add (res_avx_output (1 * 4 + i)) r5_avx,
      res_avx_output (2 * 4 + i) ≔ add (res_avx_output (2 * 4 + i)) r4_avx,
      res_avx_output (3 * 4 + i) ≔ add (res_avx_output (3 * 4 + i)) r3_avx,
      res_avx_output (4 * 4 + i) ≔ add (res_avx_output (4 * 4 + i)) r2_avx,
      res_avx_output (5 * 4 + i) ≔ add (res_avx_output (5 * 4 + i)) r1_avx, res_avx_output (6 * 4 + i) ≔ r0_avx ]

/-- The loops in `TC_interpol` (toom-cook_4way.c:944-1013); the second one is the reduction modulo `X^256 + 1`. -/
def body : List Stmt := (List.range 8).flatMap step ++ (List.range 16).map fun i =>
  res_avx i ≔ sub (res_avx_output i) (res_avx_output (i + 16))
end TInterpol

/-- `TC_interpol` (toom-cook_4way.c:916-1015); the new contents of `c_bucket` and `res_avx` are returned. -/
def TC_interpol (c_bucket res_avx : List Vec) : CM (List Vec × List Vec) := do
  let c_bucket ← transposes 8 c_bucket
  let w ← KARA_interpol c_bucket ((List.range 7).map fun i => uninitVecs (94 + i) 8)
  let r ← run 8 (w ++ [uninitVecs 101 32, res_avx]) TInterpol.body
  let res_avx ← rd r 8
  .ok (c_bucket, res_avx)

end Saber.Avx
