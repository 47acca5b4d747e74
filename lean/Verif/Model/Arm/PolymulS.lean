import Verif.Model.Arm.Machine
/-!
# `Cortex-M4/src/*/m4-tc4kara/mult_toom4_256_16.s`

The instructions of the file, in order.  Functions are cut at labels, branches and calls.  Line 3305 (`add.w r0, sp, fp`) is written with the
constant that line 3304 (`mov.w fp, #1544`) puts into `fp`.
-/
namespace Saber.Arm
/-- mult_toom4_256_16.s:1251-1370 -/
def polymul_asm_1 : List Ins := [
  .push [.r4, .r5, .r6, .r7, .r8, .r9, .sl, .fp, .ip, .lr], .addi .sp .sp (-3328), .addi .r3 .sp 768, .ldr .r4 .r1 0 .off,
  .ldr .r5 .r1 128 .off, .ldr .r6 .r1 256 .off, .ldr .r7 .r1 384 .off, .str .r7 .sp 640 .off, .op2 .uadd16 .lr .r4 .r6 .id,
  .op2 .uadd16 .ip .r5 .r7 .id, .op2 .uadd16 .fp .lr .ip .id, .op2 .usub16 .ip .lr .ip .id, .op2 .uadd16 .lr .r6 .r6 .id,
  .op2 .uadd16 .lr .lr .lr .id, .op2 .uadd16 .lr .r4 .lr .id, .op2 .uadd16 .sl .r7 .r7 .id, .op2 .uadd16 .sl .sl .sl .id,
  .op2 .uadd16 .sl .r5 .sl .id, .op2 .uadd16 .sl .sl .sl .id, .op2 .uadd16 .r9 .lr .sl .id, .op2 .usub16 .sl .lr .sl .id,
  .op2 .uadd16 .r8 .r7 .r7 .id, .op2 .uadd16 .r7 .r8 .r7 .id, .op2 .uadd16 .r7 .r7 .r6 .id, .op2 .uadd16 .r8 .r7 .r7 .id,
  .op2 .uadd16 .r7 .r7 .r8 .id, .op2 .uadd16 .r7 .r7 .r5 .id, .op2 .uadd16 .r8 .r7 .r7 .id, .op2 .uadd16 .r7 .r7 .r8 .id,
  .op2 .uadd16 .r7 .r7 .r4 .id, .str .fp .sp 0 .off, .str .ip .sp 128 .off, .str .r9 .sp 256 .off, .str .sl .sp 384 .off,
  .str .r7 .sp 512 .off, .ldr .r4 .r2 0 .off, .ldr .r5 .r2 128 .off, .ldr .r6 .r2 256 .off, .ldr .r7 .r2 384 .off, .str .r7 .r3 640 .off,
  .op2 .uadd16 .lr .r4 .r6 .id, .op2 .uadd16 .ip .r5 .r7 .id, .op2 .uadd16 .fp .lr .ip .id, .op2 .usub16 .ip .lr .ip .id,
  .op2 .uadd16 .lr .r6 .r6 .id, .op2 .uadd16 .lr .lr .lr .id, .op2 .uadd16 .lr .r4 .lr .id, .op2 .uadd16 .sl .r7 .r7 .id,
  .op2 .uadd16 .sl .sl .sl .id, .op2 .uadd16 .sl .r5 .sl .id, .op2 .uadd16 .sl .sl .sl .id, .op2 .uadd16 .r9 .lr .sl .id,
  .op2 .usub16 .sl .lr .sl .id, .op2 .uadd16 .r8 .r7 .r7 .id, .op2 .uadd16 .r7 .r8 .r7 .id, .op2 .uadd16 .r7 .r7 .r6 .id,
  .op2 .uadd16 .r8 .r7 .r7 .id, .op2 .uadd16 .r7 .r7 .r8 .id, .op2 .uadd16 .r7 .r7 .r5 .id, .op2 .uadd16 .r8 .r7 .r7 .id,
  .op2 .uadd16 .r7 .r7 .r8 .id, .op2 .uadd16 .r7 .r7 .r4 .id, .str .fp .r3 0 .off, .str .ip .r3 128 .off, .str .r9 .r3 256 .off,
  .str .sl .r3 384 .off, .str .r7 .r3 512 .off, .ldr .r4 .r1 4 .off, .ldr .r5 .r1 132 .off, .ldr .r6 .r1 260 .off, .ldr .r7 .r1 388 .off,
  .str .r7 .sp 644 .off, .op2 .uadd16 .lr .r4 .r6 .id, .op2 .uadd16 .ip .r5 .r7 .id, .op2 .uadd16 .fp .lr .ip .id,
  .op2 .usub16 .ip .lr .ip .id, .op2 .uadd16 .lr .r6 .r6 .id, .op2 .uadd16 .lr .lr .lr .id, .op2 .uadd16 .lr .r4 .lr .id,
  .op2 .uadd16 .sl .r7 .r7 .id, .op2 .uadd16 .sl .sl .sl .id, .op2 .uadd16 .sl .r5 .sl .id, .op2 .uadd16 .sl .sl .sl .id,
  .op2 .uadd16 .r9 .lr .sl .id, .op2 .usub16 .sl .lr .sl .id, .op2 .uadd16 .r8 .r7 .r7 .id, .op2 .uadd16 .r7 .r8 .r7 .id,
  .op2 .uadd16 .r7 .r7 .r6 .id, .op2 .uadd16 .r8 .r7 .r7 .id, .op2 .uadd16 .r7 .r7 .r8 .id, .op2 .uadd16 .r7 .r7 .r5 .id,
  .op2 .uadd16 .r8 .r7 .r7 .id, .op2 .uadd16 .r7 .r7 .r8 .id, .op2 .uadd16 .r7 .r7 .r4 .id, .str .fp .sp 4 .off, .str .ip .sp 132 .off,
  .str .r9 .sp 260 .off, .str .sl .sp 388 .off, .str .r7 .sp 516 .off, .ldr .r4 .r2 4 .off, .ldr .r5 .r2 132 .off, .ldr .r6 .r2 260 .off,
  .ldr .r7 .r2 388 .off, .str .r7 .r3 644 .off, .op2 .uadd16 .lr .r4 .r6 .id, .op2 .uadd16 .ip .r5 .r7 .id, .op2 .uadd16 .fp .lr .ip .id,
  .op2 .usub16 .ip .lr .ip .id, .op2 .uadd16 .lr .r6 .r6 .id, .op2 .uadd16 .lr .lr .lr .id, .op2 .uadd16 .lr .r4 .lr .id,
  .op2 .uadd16 .sl .r7 .r7 .id, .op2 .uadd16 .sl .sl .sl .id, .op2 .uadd16 .sl .r5 .sl .id, .op2 .uadd16 .sl .sl .sl .id,
  .op2 .uadd16 .r9 .lr .sl .id, .op2 .usub16 .sl .lr .sl .id, .op2 .uadd16 .r8 .r7 .r7 .id, .op2 .uadd16 .r7 .r8 .r7 .id,
  .op2 .uadd16 .r7 .r7 .r6 .id]

/-- mult_toom4_256_16.s:1371-1490 -/
def polymul_asm_2 : List Ins := [
  .op2 .uadd16 .r8 .r7 .r7 .id, .op2 .uadd16 .r7 .r7 .r8 .id, .op2 .uadd16 .r7 .r7 .r5 .id, .op2 .uadd16 .r8 .r7 .r7 .id,
  .op2 .uadd16 .r7 .r7 .r8 .id, .op2 .uadd16 .r7 .r7 .r4 .id, .str .fp .r3 4 .off, .str .ip .r3 132 .off, .str .r9 .r3 260 .off,
  .str .sl .r3 388 .off, .str .r7 .r3 516 .off, .ldr .r4 .r1 8 .off, .ldr .r5 .r1 136 .off, .ldr .r6 .r1 264 .off, .ldr .r7 .r1 392 .off,
  .str .r7 .sp 648 .off, .op2 .uadd16 .lr .r4 .r6 .id, .op2 .uadd16 .ip .r5 .r7 .id, .op2 .uadd16 .fp .lr .ip .id,
  .op2 .usub16 .ip .lr .ip .id, .op2 .uadd16 .lr .r6 .r6 .id, .op2 .uadd16 .lr .lr .lr .id, .op2 .uadd16 .lr .r4 .lr .id,
  .op2 .uadd16 .sl .r7 .r7 .id, .op2 .uadd16 .sl .sl .sl .id, .op2 .uadd16 .sl .r5 .sl .id, .op2 .uadd16 .sl .sl .sl .id,
  .op2 .uadd16 .r9 .lr .sl .id, .op2 .usub16 .sl .lr .sl .id, .op2 .uadd16 .r8 .r7 .r7 .id, .op2 .uadd16 .r7 .r8 .r7 .id,
  .op2 .uadd16 .r7 .r7 .r6 .id, .op2 .uadd16 .r8 .r7 .r7 .id, .op2 .uadd16 .r7 .r7 .r8 .id, .op2 .uadd16 .r7 .r7 .r5 .id,
  .op2 .uadd16 .r8 .r7 .r7 .id, .op2 .uadd16 .r7 .r7 .r8 .id, .op2 .uadd16 .r7 .r7 .r4 .id, .str .fp .sp 8 .off, .str .ip .sp 136 .off,
  .str .r9 .sp 264 .off, .str .sl .sp 392 .off, .str .r7 .sp 520 .off, .ldr .r4 .r2 8 .off, .ldr .r5 .r2 136 .off, .ldr .r6 .r2 264 .off,
  .ldr .r7 .r2 392 .off, .str .r7 .r3 648 .off, .op2 .uadd16 .lr .r4 .r6 .id, .op2 .uadd16 .ip .r5 .r7 .id, .op2 .uadd16 .fp .lr .ip .id,
  .op2 .usub16 .ip .lr .ip .id, .op2 .uadd16 .lr .r6 .r6 .id, .op2 .uadd16 .lr .lr .lr .id, .op2 .uadd16 .lr .r4 .lr .id,
  .op2 .uadd16 .sl .r7 .r7 .id, .op2 .uadd16 .sl .sl .sl .id, .op2 .uadd16 .sl .r5 .sl .id, .op2 .uadd16 .sl .sl .sl .id,
  .op2 .uadd16 .r9 .lr .sl .id, .op2 .usub16 .sl .lr .sl .id, .op2 .uadd16 .r8 .r7 .r7 .id, .op2 .uadd16 .r7 .r8 .r7 .id,
  .op2 .uadd16 .r7 .r7 .r6 .id, .op2 .uadd16 .r8 .r7 .r7 .id, .op2 .uadd16 .r7 .r7 .r8 .id, .op2 .uadd16 .r7 .r7 .r5 .id,
  .op2 .uadd16 .r8 .r7 .r7 .id, .op2 .uadd16 .r7 .r7 .r8 .id, .op2 .uadd16 .r7 .r7 .r4 .id, .str .fp .r3 8 .off, .str .ip .r3 136 .off,
  .str .r9 .r3 264 .off, .str .sl .r3 392 .off, .str .r7 .r3 520 .off, .ldr .r4 .r1 12 .off, .ldr .r5 .r1 140 .off,
  .ldr .r6 .r1 268 .off, .ldr .r7 .r1 396 .off, .str .r7 .sp 652 .off, .op2 .uadd16 .lr .r4 .r6 .id, .op2 .uadd16 .ip .r5 .r7 .id,
  .op2 .uadd16 .fp .lr .ip .id, .op2 .usub16 .ip .lr .ip .id, .op2 .uadd16 .lr .r6 .r6 .id, .op2 .uadd16 .lr .lr .lr .id,
  .op2 .uadd16 .lr .r4 .lr .id, .op2 .uadd16 .sl .r7 .r7 .id, .op2 .uadd16 .sl .sl .sl .id, .op2 .uadd16 .sl .r5 .sl .id,
  .op2 .uadd16 .sl .sl .sl .id, .op2 .uadd16 .r9 .lr .sl .id, .op2 .usub16 .sl .lr .sl .id, .op2 .uadd16 .r8 .r7 .r7 .id,
  .op2 .uadd16 .r7 .r8 .r7 .id, .op2 .uadd16 .r7 .r7 .r6 .id, .op2 .uadd16 .r8 .r7 .r7 .id, .op2 .uadd16 .r7 .r7 .r8 .id,
  .op2 .uadd16 .r7 .r7 .r5 .id, .op2 .uadd16 .r8 .r7 .r7 .id, .op2 .uadd16 .r7 .r7 .r8 .id, .op2 .uadd16 .r7 .r7 .r4 .id,
  .str .fp .sp 12 .off, .str .ip .sp 140 .off, .str .r9 .sp 268 .off, .str .sl .sp 396 .off, .str .r7 .sp 524 .off, .ldr .r4 .r2 12 .off,
  .ldr .r5 .r2 140 .off, .ldr .r6 .r2 268 .off, .ldr .r7 .r2 396 .off, .str .r7 .r3 652 .off, .op2 .uadd16 .lr .r4 .r6 .id,
  .op2 .uadd16 .ip .r5 .r7 .id, .op2 .uadd16 .fp .lr .ip .id, .op2 .usub16 .ip .lr .ip .id, .op2 .uadd16 .lr .r6 .r6 .id,
  .op2 .uadd16 .lr .lr .lr .id, .op2 .uadd16 .lr .r4 .lr .id, .op2 .uadd16 .sl .r7 .r7 .id]

/-- mult_toom4_256_16.s:1491-1610 -/
def polymul_asm_3 : List Ins := [
  .op2 .uadd16 .sl .sl .sl .id, .op2 .uadd16 .sl .r5 .sl .id, .op2 .uadd16 .sl .sl .sl .id, .op2 .uadd16 .r9 .lr .sl .id,
  .op2 .usub16 .sl .lr .sl .id, .op2 .uadd16 .r8 .r7 .r7 .id, .op2 .uadd16 .r7 .r8 .r7 .id, .op2 .uadd16 .r7 .r7 .r6 .id,
  .op2 .uadd16 .r8 .r7 .r7 .id, .op2 .uadd16 .r7 .r7 .r8 .id, .op2 .uadd16 .r7 .r7 .r5 .id, .op2 .uadd16 .r8 .r7 .r7 .id,
  .op2 .uadd16 .r7 .r7 .r8 .id, .op2 .uadd16 .r7 .r7 .r4 .id, .str .fp .r3 12 .off, .str .ip .r3 140 .off, .str .r9 .r3 268 .off,
  .str .sl .r3 396 .off, .str .r7 .r3 524 .off, .ldr .r4 .r1 16 .off, .ldr .r5 .r1 144 .off, .ldr .r6 .r1 272 .off,
  .ldr .r7 .r1 400 .off, .str .r7 .sp 656 .off, .op2 .uadd16 .lr .r4 .r6 .id, .op2 .uadd16 .ip .r5 .r7 .id, .op2 .uadd16 .fp .lr .ip .id,
  .op2 .usub16 .ip .lr .ip .id, .op2 .uadd16 .lr .r6 .r6 .id, .op2 .uadd16 .lr .lr .lr .id, .op2 .uadd16 .lr .r4 .lr .id,
  .op2 .uadd16 .sl .r7 .r7 .id, .op2 .uadd16 .sl .sl .sl .id, .op2 .uadd16 .sl .r5 .sl .id, .op2 .uadd16 .sl .sl .sl .id,
  .op2 .uadd16 .r9 .lr .sl .id, .op2 .usub16 .sl .lr .sl .id, .op2 .uadd16 .r8 .r7 .r7 .id, .op2 .uadd16 .r7 .r8 .r7 .id,
  .op2 .uadd16 .r7 .r7 .r6 .id, .op2 .uadd16 .r8 .r7 .r7 .id, .op2 .uadd16 .r7 .r7 .r8 .id, .op2 .uadd16 .r7 .r7 .r5 .id,
  .op2 .uadd16 .r8 .r7 .r7 .id, .op2 .uadd16 .r7 .r7 .r8 .id, .op2 .uadd16 .r7 .r7 .r4 .id, .str .fp .sp 16 .off, .str .ip .sp 144 .off,
  .str .r9 .sp 272 .off, .str .sl .sp 400 .off, .str .r7 .sp 528 .off, .ldr .r4 .r2 16 .off, .ldr .r5 .r2 144 .off,
  .ldr .r6 .r2 272 .off, .ldr .r7 .r2 400 .off, .str .r7 .r3 656 .off, .op2 .uadd16 .lr .r4 .r6 .id, .op2 .uadd16 .ip .r5 .r7 .id,
  .op2 .uadd16 .fp .lr .ip .id, .op2 .usub16 .ip .lr .ip .id, .op2 .uadd16 .lr .r6 .r6 .id, .op2 .uadd16 .lr .lr .lr .id,
  .op2 .uadd16 .lr .r4 .lr .id, .op2 .uadd16 .sl .r7 .r7 .id, .op2 .uadd16 .sl .sl .sl .id, .op2 .uadd16 .sl .r5 .sl .id,
  .op2 .uadd16 .sl .sl .sl .id, .op2 .uadd16 .r9 .lr .sl .id, .op2 .usub16 .sl .lr .sl .id, .op2 .uadd16 .r8 .r7 .r7 .id,
  .op2 .uadd16 .r7 .r8 .r7 .id, .op2 .uadd16 .r7 .r7 .r6 .id, .op2 .uadd16 .r8 .r7 .r7 .id, .op2 .uadd16 .r7 .r7 .r8 .id,
  .op2 .uadd16 .r7 .r7 .r5 .id, .op2 .uadd16 .r8 .r7 .r7 .id, .op2 .uadd16 .r7 .r7 .r8 .id, .op2 .uadd16 .r7 .r7 .r4 .id,
  .str .fp .r3 16 .off, .str .ip .r3 144 .off, .str .r9 .r3 272 .off, .str .sl .r3 400 .off, .str .r7 .r3 528 .off, .ldr .r4 .r1 20 .off,
  .ldr .r5 .r1 148 .off, .ldr .r6 .r1 276 .off, .ldr .r7 .r1 404 .off, .str .r7 .sp 660 .off, .op2 .uadd16 .lr .r4 .r6 .id,
  .op2 .uadd16 .ip .r5 .r7 .id, .op2 .uadd16 .fp .lr .ip .id, .op2 .usub16 .ip .lr .ip .id, .op2 .uadd16 .lr .r6 .r6 .id,
  .op2 .uadd16 .lr .lr .lr .id, .op2 .uadd16 .lr .r4 .lr .id, .op2 .uadd16 .sl .r7 .r7 .id, .op2 .uadd16 .sl .sl .sl .id,
  .op2 .uadd16 .sl .r5 .sl .id, .op2 .uadd16 .sl .sl .sl .id, .op2 .uadd16 .r9 .lr .sl .id, .op2 .usub16 .sl .lr .sl .id,
  .op2 .uadd16 .r8 .r7 .r7 .id, .op2 .uadd16 .r7 .r8 .r7 .id, .op2 .uadd16 .r7 .r7 .r6 .id, .op2 .uadd16 .r8 .r7 .r7 .id,
  .op2 .uadd16 .r7 .r7 .r8 .id, .op2 .uadd16 .r7 .r7 .r5 .id, .op2 .uadd16 .r8 .r7 .r7 .id, .op2 .uadd16 .r7 .r7 .r8 .id,
  .op2 .uadd16 .r7 .r7 .r4 .id, .str .fp .sp 20 .off, .str .ip .sp 148 .off, .str .r9 .sp 276 .off, .str .sl .sp 404 .off,
  .str .r7 .sp 532 .off, .ldr .r4 .r2 20 .off, .ldr .r5 .r2 148 .off, .ldr .r6 .r2 276 .off, .ldr .r7 .r2 404 .off,
  .str .r7 .r3 660 .off]

/-- mult_toom4_256_16.s:1611-1730 -/
def polymul_asm_4 : List Ins := [
  .op2 .uadd16 .lr .r4 .r6 .id, .op2 .uadd16 .ip .r5 .r7 .id, .op2 .uadd16 .fp .lr .ip .id, .op2 .usub16 .ip .lr .ip .id,
  .op2 .uadd16 .lr .r6 .r6 .id, .op2 .uadd16 .lr .lr .lr .id, .op2 .uadd16 .lr .r4 .lr .id, .op2 .uadd16 .sl .r7 .r7 .id,
  .op2 .uadd16 .sl .sl .sl .id, .op2 .uadd16 .sl .r5 .sl .id, .op2 .uadd16 .sl .sl .sl .id, .op2 .uadd16 .r9 .lr .sl .id,
  .op2 .usub16 .sl .lr .sl .id, .op2 .uadd16 .r8 .r7 .r7 .id, .op2 .uadd16 .r7 .r8 .r7 .id, .op2 .uadd16 .r7 .r7 .r6 .id,
  .op2 .uadd16 .r8 .r7 .r7 .id, .op2 .uadd16 .r7 .r7 .r8 .id, .op2 .uadd16 .r7 .r7 .r5 .id, .op2 .uadd16 .r8 .r7 .r7 .id,
  .op2 .uadd16 .r7 .r7 .r8 .id, .op2 .uadd16 .r7 .r7 .r4 .id, .str .fp .r3 20 .off, .str .ip .r3 148 .off, .str .r9 .r3 276 .off,
  .str .sl .r3 404 .off, .str .r7 .r3 532 .off, .ldr .r4 .r1 24 .off, .ldr .r5 .r1 152 .off, .ldr .r6 .r1 280 .off,
  .ldr .r7 .r1 408 .off, .str .r7 .sp 664 .off, .op2 .uadd16 .lr .r4 .r6 .id, .op2 .uadd16 .ip .r5 .r7 .id, .op2 .uadd16 .fp .lr .ip .id,
  .op2 .usub16 .ip .lr .ip .id, .op2 .uadd16 .lr .r6 .r6 .id, .op2 .uadd16 .lr .lr .lr .id, .op2 .uadd16 .lr .r4 .lr .id,
  .op2 .uadd16 .sl .r7 .r7 .id, .op2 .uadd16 .sl .sl .sl .id, .op2 .uadd16 .sl .r5 .sl .id, .op2 .uadd16 .sl .sl .sl .id,
  .op2 .uadd16 .r9 .lr .sl .id, .op2 .usub16 .sl .lr .sl .id, .op2 .uadd16 .r8 .r7 .r7 .id, .op2 .uadd16 .r7 .r8 .r7 .id,
  .op2 .uadd16 .r7 .r7 .r6 .id, .op2 .uadd16 .r8 .r7 .r7 .id, .op2 .uadd16 .r7 .r7 .r8 .id, .op2 .uadd16 .r7 .r7 .r5 .id,
  .op2 .uadd16 .r8 .r7 .r7 .id, .op2 .uadd16 .r7 .r7 .r8 .id, .op2 .uadd16 .r7 .r7 .r4 .id, .str .fp .sp 24 .off, .str .ip .sp 152 .off,
  .str .r9 .sp 280 .off, .str .sl .sp 408 .off, .str .r7 .sp 536 .off, .ldr .r4 .r2 24 .off, .ldr .r5 .r2 152 .off,
  .ldr .r6 .r2 280 .off, .ldr .r7 .r2 408 .off, .str .r7 .r3 664 .off, .op2 .uadd16 .lr .r4 .r6 .id, .op2 .uadd16 .ip .r5 .r7 .id,
  .op2 .uadd16 .fp .lr .ip .id, .op2 .usub16 .ip .lr .ip .id, .op2 .uadd16 .lr .r6 .r6 .id, .op2 .uadd16 .lr .lr .lr .id,
  .op2 .uadd16 .lr .r4 .lr .id, .op2 .uadd16 .sl .r7 .r7 .id, .op2 .uadd16 .sl .sl .sl .id, .op2 .uadd16 .sl .r5 .sl .id,
  .op2 .uadd16 .sl .sl .sl .id, .op2 .uadd16 .r9 .lr .sl .id, .op2 .usub16 .sl .lr .sl .id, .op2 .uadd16 .r8 .r7 .r7 .id,
  .op2 .uadd16 .r7 .r8 .r7 .id, .op2 .uadd16 .r7 .r7 .r6 .id, .op2 .uadd16 .r8 .r7 .r7 .id, .op2 .uadd16 .r7 .r7 .r8 .id,
  .op2 .uadd16 .r7 .r7 .r5 .id, .op2 .uadd16 .r8 .r7 .r7 .id, .op2 .uadd16 .r7 .r7 .r8 .id, .op2 .uadd16 .r7 .r7 .r4 .id,
  .str .fp .r3 24 .off, .str .ip .r3 152 .off, .str .r9 .r3 280 .off, .str .sl .r3 408 .off, .str .r7 .r3 536 .off, .ldr .r4 .r1 28 .off,
  .ldr .r5 .r1 156 .off, .ldr .r6 .r1 284 .off, .ldr .r7 .r1 412 .off, .str .r7 .sp 668 .off, .op2 .uadd16 .lr .r4 .r6 .id,
  .op2 .uadd16 .ip .r5 .r7 .id, .op2 .uadd16 .fp .lr .ip .id, .op2 .usub16 .ip .lr .ip .id, .op2 .uadd16 .lr .r6 .r6 .id,
  .op2 .uadd16 .lr .lr .lr .id, .op2 .uadd16 .lr .r4 .lr .id, .op2 .uadd16 .sl .r7 .r7 .id, .op2 .uadd16 .sl .sl .sl .id,
  .op2 .uadd16 .sl .r5 .sl .id, .op2 .uadd16 .sl .sl .sl .id, .op2 .uadd16 .r9 .lr .sl .id, .op2 .usub16 .sl .lr .sl .id,
  .op2 .uadd16 .r8 .r7 .r7 .id, .op2 .uadd16 .r7 .r8 .r7 .id, .op2 .uadd16 .r7 .r7 .r6 .id, .op2 .uadd16 .r8 .r7 .r7 .id,
  .op2 .uadd16 .r7 .r7 .r8 .id, .op2 .uadd16 .r7 .r7 .r5 .id, .op2 .uadd16 .r8 .r7 .r7 .id, .op2 .uadd16 .r7 .r7 .r8 .id,
  .op2 .uadd16 .r7 .r7 .r4 .id, .str .fp .sp 28 .off, .str .ip .sp 156 .off]

/-- mult_toom4_256_16.s:1731-1850 -/
def polymul_asm_5 : List Ins := [
  .str .r9 .sp 284 .off, .str .sl .sp 412 .off, .str .r7 .sp 540 .off, .ldr .r4 .r2 28 .off, .ldr .r5 .r2 156 .off,
  .ldr .r6 .r2 284 .off, .ldr .r7 .r2 412 .off, .str .r7 .r3 668 .off, .op2 .uadd16 .lr .r4 .r6 .id, .op2 .uadd16 .ip .r5 .r7 .id,
  .op2 .uadd16 .fp .lr .ip .id, .op2 .usub16 .ip .lr .ip .id, .op2 .uadd16 .lr .r6 .r6 .id, .op2 .uadd16 .lr .lr .lr .id,
  .op2 .uadd16 .lr .r4 .lr .id, .op2 .uadd16 .sl .r7 .r7 .id, .op2 .uadd16 .sl .sl .sl .id, .op2 .uadd16 .sl .r5 .sl .id,
  .op2 .uadd16 .sl .sl .sl .id, .op2 .uadd16 .r9 .lr .sl .id, .op2 .usub16 .sl .lr .sl .id, .op2 .uadd16 .r8 .r7 .r7 .id,
  .op2 .uadd16 .r7 .r8 .r7 .id, .op2 .uadd16 .r7 .r7 .r6 .id, .op2 .uadd16 .r8 .r7 .r7 .id, .op2 .uadd16 .r7 .r7 .r8 .id,
  .op2 .uadd16 .r7 .r7 .r5 .id, .op2 .uadd16 .r8 .r7 .r7 .id, .op2 .uadd16 .r7 .r7 .r8 .id, .op2 .uadd16 .r7 .r7 .r4 .id,
  .str .fp .r3 28 .off, .str .ip .r3 156 .off, .str .r9 .r3 284 .off, .str .sl .r3 412 .off, .str .r7 .r3 540 .off, .ldr .r4 .r1 32 .off,
  .ldr .r5 .r1 160 .off, .ldr .r6 .r1 288 .off, .ldr .r7 .r1 416 .off, .str .r7 .sp 672 .off, .op2 .uadd16 .lr .r4 .r6 .id,
  .op2 .uadd16 .ip .r5 .r7 .id, .op2 .uadd16 .fp .lr .ip .id, .op2 .usub16 .ip .lr .ip .id, .op2 .uadd16 .lr .r6 .r6 .id,
  .op2 .uadd16 .lr .lr .lr .id, .op2 .uadd16 .lr .r4 .lr .id, .op2 .uadd16 .sl .r7 .r7 .id, .op2 .uadd16 .sl .sl .sl .id,
  .op2 .uadd16 .sl .r5 .sl .id, .op2 .uadd16 .sl .sl .sl .id, .op2 .uadd16 .r9 .lr .sl .id, .op2 .usub16 .sl .lr .sl .id,
  .op2 .uadd16 .r8 .r7 .r7 .id, .op2 .uadd16 .r7 .r8 .r7 .id, .op2 .uadd16 .r7 .r7 .r6 .id, .op2 .uadd16 .r8 .r7 .r7 .id,
  .op2 .uadd16 .r7 .r7 .r8 .id, .op2 .uadd16 .r7 .r7 .r5 .id, .op2 .uadd16 .r8 .r7 .r7 .id, .op2 .uadd16 .r7 .r7 .r8 .id,
  .op2 .uadd16 .r7 .r7 .r4 .id, .str .fp .sp 32 .off, .str .ip .sp 160 .off, .str .r9 .sp 288 .off, .str .sl .sp 416 .off,
  .str .r7 .sp 544 .off, .ldr .r4 .r2 32 .off, .ldr .r5 .r2 160 .off, .ldr .r6 .r2 288 .off, .ldr .r7 .r2 416 .off,
  .str .r7 .r3 672 .off, .op2 .uadd16 .lr .r4 .r6 .id, .op2 .uadd16 .ip .r5 .r7 .id, .op2 .uadd16 .fp .lr .ip .id,
  .op2 .usub16 .ip .lr .ip .id, .op2 .uadd16 .lr .r6 .r6 .id, .op2 .uadd16 .lr .lr .lr .id, .op2 .uadd16 .lr .r4 .lr .id,
  .op2 .uadd16 .sl .r7 .r7 .id, .op2 .uadd16 .sl .sl .sl .id, .op2 .uadd16 .sl .r5 .sl .id, .op2 .uadd16 .sl .sl .sl .id,
  .op2 .uadd16 .r9 .lr .sl .id, .op2 .usub16 .sl .lr .sl .id, .op2 .uadd16 .r8 .r7 .r7 .id, .op2 .uadd16 .r7 .r8 .r7 .id,
  .op2 .uadd16 .r7 .r7 .r6 .id, .op2 .uadd16 .r8 .r7 .r7 .id, .op2 .uadd16 .r7 .r7 .r8 .id, .op2 .uadd16 .r7 .r7 .r5 .id,
  .op2 .uadd16 .r8 .r7 .r7 .id, .op2 .uadd16 .r7 .r7 .r8 .id, .op2 .uadd16 .r7 .r7 .r4 .id, .str .fp .r3 32 .off, .str .ip .r3 160 .off,
  .str .r9 .r3 288 .off, .str .sl .r3 416 .off, .str .r7 .r3 544 .off, .ldr .r4 .r1 36 .off, .ldr .r5 .r1 164 .off,
  .ldr .r6 .r1 292 .off, .ldr .r7 .r1 420 .off, .str .r7 .sp 676 .off, .op2 .uadd16 .lr .r4 .r6 .id, .op2 .uadd16 .ip .r5 .r7 .id,
  .op2 .uadd16 .fp .lr .ip .id, .op2 .usub16 .ip .lr .ip .id, .op2 .uadd16 .lr .r6 .r6 .id, .op2 .uadd16 .lr .lr .lr .id,
  .op2 .uadd16 .lr .r4 .lr .id, .op2 .uadd16 .sl .r7 .r7 .id, .op2 .uadd16 .sl .sl .sl .id, .op2 .uadd16 .sl .r5 .sl .id,
  .op2 .uadd16 .sl .sl .sl .id, .op2 .uadd16 .r9 .lr .sl .id, .op2 .usub16 .sl .lr .sl .id, .op2 .uadd16 .r8 .r7 .r7 .id,
  .op2 .uadd16 .r7 .r8 .r7 .id, .op2 .uadd16 .r7 .r7 .r6 .id]

/-- mult_toom4_256_16.s:1851-1970 -/
def polymul_asm_6 : List Ins := [
  .op2 .uadd16 .r8 .r7 .r7 .id, .op2 .uadd16 .r7 .r7 .r8 .id, .op2 .uadd16 .r7 .r7 .r5 .id, .op2 .uadd16 .r8 .r7 .r7 .id,
  .op2 .uadd16 .r7 .r7 .r8 .id, .op2 .uadd16 .r7 .r7 .r4 .id, .str .fp .sp 36 .off, .str .ip .sp 164 .off, .str .r9 .sp 292 .off,
  .str .sl .sp 420 .off, .str .r7 .sp 548 .off, .ldr .r4 .r2 36 .off, .ldr .r5 .r2 164 .off, .ldr .r6 .r2 292 .off,
  .ldr .r7 .r2 420 .off, .str .r7 .r3 676 .off, .op2 .uadd16 .lr .r4 .r6 .id, .op2 .uadd16 .ip .r5 .r7 .id, .op2 .uadd16 .fp .lr .ip .id,
  .op2 .usub16 .ip .lr .ip .id, .op2 .uadd16 .lr .r6 .r6 .id, .op2 .uadd16 .lr .lr .lr .id, .op2 .uadd16 .lr .r4 .lr .id,
  .op2 .uadd16 .sl .r7 .r7 .id, .op2 .uadd16 .sl .sl .sl .id, .op2 .uadd16 .sl .r5 .sl .id, .op2 .uadd16 .sl .sl .sl .id,
  .op2 .uadd16 .r9 .lr .sl .id, .op2 .usub16 .sl .lr .sl .id, .op2 .uadd16 .r8 .r7 .r7 .id, .op2 .uadd16 .r7 .r8 .r7 .id,
  .op2 .uadd16 .r7 .r7 .r6 .id, .op2 .uadd16 .r8 .r7 .r7 .id, .op2 .uadd16 .r7 .r7 .r8 .id, .op2 .uadd16 .r7 .r7 .r5 .id,
  .op2 .uadd16 .r8 .r7 .r7 .id, .op2 .uadd16 .r7 .r7 .r8 .id, .op2 .uadd16 .r7 .r7 .r4 .id, .str .fp .r3 36 .off, .str .ip .r3 164 .off,
  .str .r9 .r3 292 .off, .str .sl .r3 420 .off, .str .r7 .r3 548 .off, .ldr .r4 .r1 40 .off, .ldr .r5 .r1 168 .off,
  .ldr .r6 .r1 296 .off, .ldr .r7 .r1 424 .off, .str .r7 .sp 680 .off, .op2 .uadd16 .lr .r4 .r6 .id, .op2 .uadd16 .ip .r5 .r7 .id,
  .op2 .uadd16 .fp .lr .ip .id, .op2 .usub16 .ip .lr .ip .id, .op2 .uadd16 .lr .r6 .r6 .id, .op2 .uadd16 .lr .lr .lr .id,
  .op2 .uadd16 .lr .r4 .lr .id, .op2 .uadd16 .sl .r7 .r7 .id, .op2 .uadd16 .sl .sl .sl .id, .op2 .uadd16 .sl .r5 .sl .id,
  .op2 .uadd16 .sl .sl .sl .id, .op2 .uadd16 .r9 .lr .sl .id, .op2 .usub16 .sl .lr .sl .id, .op2 .uadd16 .r8 .r7 .r7 .id,
  .op2 .uadd16 .r7 .r8 .r7 .id, .op2 .uadd16 .r7 .r7 .r6 .id, .op2 .uadd16 .r8 .r7 .r7 .id, .op2 .uadd16 .r7 .r7 .r8 .id,
  .op2 .uadd16 .r7 .r7 .r5 .id, .op2 .uadd16 .r8 .r7 .r7 .id, .op2 .uadd16 .r7 .r7 .r8 .id, .op2 .uadd16 .r7 .r7 .r4 .id,
  .str .fp .sp 40 .off, .str .ip .sp 168 .off, .str .r9 .sp 296 .off, .str .sl .sp 424 .off, .str .r7 .sp 552 .off, .ldr .r4 .r2 40 .off,
  .ldr .r5 .r2 168 .off, .ldr .r6 .r2 296 .off, .ldr .r7 .r2 424 .off, .str .r7 .r3 680 .off, .op2 .uadd16 .lr .r4 .r6 .id,
  .op2 .uadd16 .ip .r5 .r7 .id, .op2 .uadd16 .fp .lr .ip .id, .op2 .usub16 .ip .lr .ip .id, .op2 .uadd16 .lr .r6 .r6 .id,
  .op2 .uadd16 .lr .lr .lr .id, .op2 .uadd16 .lr .r4 .lr .id, .op2 .uadd16 .sl .r7 .r7 .id, .op2 .uadd16 .sl .sl .sl .id,
  .op2 .uadd16 .sl .r5 .sl .id, .op2 .uadd16 .sl .sl .sl .id, .op2 .uadd16 .r9 .lr .sl .id, .op2 .usub16 .sl .lr .sl .id,
  .op2 .uadd16 .r8 .r7 .r7 .id, .op2 .uadd16 .r7 .r8 .r7 .id, .op2 .uadd16 .r7 .r7 .r6 .id, .op2 .uadd16 .r8 .r7 .r7 .id,
  .op2 .uadd16 .r7 .r7 .r8 .id, .op2 .uadd16 .r7 .r7 .r5 .id, .op2 .uadd16 .r8 .r7 .r7 .id, .op2 .uadd16 .r7 .r7 .r8 .id,
  .op2 .uadd16 .r7 .r7 .r4 .id, .str .fp .r3 40 .off, .str .ip .r3 168 .off, .str .r9 .r3 296 .off, .str .sl .r3 424 .off,
  .str .r7 .r3 552 .off, .ldr .r4 .r1 44 .off, .ldr .r5 .r1 172 .off, .ldr .r6 .r1 300 .off, .ldr .r7 .r1 428 .off,
  .str .r7 .sp 684 .off, .op2 .uadd16 .lr .r4 .r6 .id, .op2 .uadd16 .ip .r5 .r7 .id, .op2 .uadd16 .fp .lr .ip .id,
  .op2 .usub16 .ip .lr .ip .id, .op2 .uadd16 .lr .r6 .r6 .id, .op2 .uadd16 .lr .lr .lr .id, .op2 .uadd16 .lr .r4 .lr .id,
  .op2 .uadd16 .sl .r7 .r7 .id]

/-- mult_toom4_256_16.s:1971-2090 -/
def polymul_asm_7 : List Ins := [
  .op2 .uadd16 .sl .sl .sl .id, .op2 .uadd16 .sl .r5 .sl .id, .op2 .uadd16 .sl .sl .sl .id, .op2 .uadd16 .r9 .lr .sl .id,
  .op2 .usub16 .sl .lr .sl .id, .op2 .uadd16 .r8 .r7 .r7 .id, .op2 .uadd16 .r7 .r8 .r7 .id, .op2 .uadd16 .r7 .r7 .r6 .id,
  .op2 .uadd16 .r8 .r7 .r7 .id, .op2 .uadd16 .r7 .r7 .r8 .id, .op2 .uadd16 .r7 .r7 .r5 .id, .op2 .uadd16 .r8 .r7 .r7 .id,
  .op2 .uadd16 .r7 .r7 .r8 .id, .op2 .uadd16 .r7 .r7 .r4 .id, .str .fp .sp 44 .off, .str .ip .sp 172 .off, .str .r9 .sp 300 .off,
  .str .sl .sp 428 .off, .str .r7 .sp 556 .off, .ldr .r4 .r2 44 .off, .ldr .r5 .r2 172 .off, .ldr .r6 .r2 300 .off,
  .ldr .r7 .r2 428 .off, .str .r7 .r3 684 .off, .op2 .uadd16 .lr .r4 .r6 .id, .op2 .uadd16 .ip .r5 .r7 .id, .op2 .uadd16 .fp .lr .ip .id,
  .op2 .usub16 .ip .lr .ip .id, .op2 .uadd16 .lr .r6 .r6 .id, .op2 .uadd16 .lr .lr .lr .id, .op2 .uadd16 .lr .r4 .lr .id,
  .op2 .uadd16 .sl .r7 .r7 .id, .op2 .uadd16 .sl .sl .sl .id, .op2 .uadd16 .sl .r5 .sl .id, .op2 .uadd16 .sl .sl .sl .id,
  .op2 .uadd16 .r9 .lr .sl .id, .op2 .usub16 .sl .lr .sl .id, .op2 .uadd16 .r8 .r7 .r7 .id, .op2 .uadd16 .r7 .r8 .r7 .id,
  .op2 .uadd16 .r7 .r7 .r6 .id, .op2 .uadd16 .r8 .r7 .r7 .id, .op2 .uadd16 .r7 .r7 .r8 .id, .op2 .uadd16 .r7 .r7 .r5 .id,
  .op2 .uadd16 .r8 .r7 .r7 .id, .op2 .uadd16 .r7 .r7 .r8 .id, .op2 .uadd16 .r7 .r7 .r4 .id, .str .fp .r3 44 .off, .str .ip .r3 172 .off,
  .str .r9 .r3 300 .off, .str .sl .r3 428 .off, .str .r7 .r3 556 .off, .ldr .r4 .r1 48 .off, .ldr .r5 .r1 176 .off,
  .ldr .r6 .r1 304 .off, .ldr .r7 .r1 432 .off, .str .r7 .sp 688 .off, .op2 .uadd16 .lr .r4 .r6 .id, .op2 .uadd16 .ip .r5 .r7 .id,
  .op2 .uadd16 .fp .lr .ip .id, .op2 .usub16 .ip .lr .ip .id, .op2 .uadd16 .lr .r6 .r6 .id, .op2 .uadd16 .lr .lr .lr .id,
  .op2 .uadd16 .lr .r4 .lr .id, .op2 .uadd16 .sl .r7 .r7 .id, .op2 .uadd16 .sl .sl .sl .id, .op2 .uadd16 .sl .r5 .sl .id,
  .op2 .uadd16 .sl .sl .sl .id, .op2 .uadd16 .r9 .lr .sl .id, .op2 .usub16 .sl .lr .sl .id, .op2 .uadd16 .r8 .r7 .r7 .id,
  .op2 .uadd16 .r7 .r8 .r7 .id, .op2 .uadd16 .r7 .r7 .r6 .id, .op2 .uadd16 .r8 .r7 .r7 .id, .op2 .uadd16 .r7 .r7 .r8 .id,
  .op2 .uadd16 .r7 .r7 .r5 .id, .op2 .uadd16 .r8 .r7 .r7 .id, .op2 .uadd16 .r7 .r7 .r8 .id, .op2 .uadd16 .r7 .r7 .r4 .id,
  .str .fp .sp 48 .off, .str .ip .sp 176 .off, .str .r9 .sp 304 .off, .str .sl .sp 432 .off, .str .r7 .sp 560 .off, .ldr .r4 .r2 48 .off,
  .ldr .r5 .r2 176 .off, .ldr .r6 .r2 304 .off, .ldr .r7 .r2 432 .off, .str .r7 .r3 688 .off, .op2 .uadd16 .lr .r4 .r6 .id,
  .op2 .uadd16 .ip .r5 .r7 .id, .op2 .uadd16 .fp .lr .ip .id, .op2 .usub16 .ip .lr .ip .id, .op2 .uadd16 .lr .r6 .r6 .id,
  .op2 .uadd16 .lr .lr .lr .id, .op2 .uadd16 .lr .r4 .lr .id, .op2 .uadd16 .sl .r7 .r7 .id, .op2 .uadd16 .sl .sl .sl .id,
  .op2 .uadd16 .sl .r5 .sl .id, .op2 .uadd16 .sl .sl .sl .id, .op2 .uadd16 .r9 .lr .sl .id, .op2 .usub16 .sl .lr .sl .id,
  .op2 .uadd16 .r8 .r7 .r7 .id, .op2 .uadd16 .r7 .r8 .r7 .id, .op2 .uadd16 .r7 .r7 .r6 .id, .op2 .uadd16 .r8 .r7 .r7 .id,
  .op2 .uadd16 .r7 .r7 .r8 .id, .op2 .uadd16 .r7 .r7 .r5 .id, .op2 .uadd16 .r8 .r7 .r7 .id, .op2 .uadd16 .r7 .r7 .r8 .id,
  .op2 .uadd16 .r7 .r7 .r4 .id, .str .fp .r3 48 .off, .str .ip .r3 176 .off, .str .r9 .r3 304 .off, .str .sl .r3 432 .off,
  .str .r7 .r3 560 .off, .ldr .r4 .r1 52 .off, .ldr .r5 .r1 180 .off, .ldr .r6 .r1 308 .off, .ldr .r7 .r1 436 .off,
  .str .r7 .sp 692 .off]

/-- mult_toom4_256_16.s:2091-2210 -/
def polymul_asm_8 : List Ins := [
  .op2 .uadd16 .lr .r4 .r6 .id, .op2 .uadd16 .ip .r5 .r7 .id, .op2 .uadd16 .fp .lr .ip .id, .op2 .usub16 .ip .lr .ip .id,
  .op2 .uadd16 .lr .r6 .r6 .id, .op2 .uadd16 .lr .lr .lr .id, .op2 .uadd16 .lr .r4 .lr .id, .op2 .uadd16 .sl .r7 .r7 .id,
  .op2 .uadd16 .sl .sl .sl .id, .op2 .uadd16 .sl .r5 .sl .id, .op2 .uadd16 .sl .sl .sl .id, .op2 .uadd16 .r9 .lr .sl .id,
  .op2 .usub16 .sl .lr .sl .id, .op2 .uadd16 .r8 .r7 .r7 .id, .op2 .uadd16 .r7 .r8 .r7 .id, .op2 .uadd16 .r7 .r7 .r6 .id,
  .op2 .uadd16 .r8 .r7 .r7 .id, .op2 .uadd16 .r7 .r7 .r8 .id, .op2 .uadd16 .r7 .r7 .r5 .id, .op2 .uadd16 .r8 .r7 .r7 .id,
  .op2 .uadd16 .r7 .r7 .r8 .id, .op2 .uadd16 .r7 .r7 .r4 .id, .str .fp .sp 52 .off, .str .ip .sp 180 .off, .str .r9 .sp 308 .off,
  .str .sl .sp 436 .off, .str .r7 .sp 564 .off, .ldr .r4 .r2 52 .off, .ldr .r5 .r2 180 .off, .ldr .r6 .r2 308 .off,
  .ldr .r7 .r2 436 .off, .str .r7 .r3 692 .off, .op2 .uadd16 .lr .r4 .r6 .id, .op2 .uadd16 .ip .r5 .r7 .id, .op2 .uadd16 .fp .lr .ip .id,
  .op2 .usub16 .ip .lr .ip .id, .op2 .uadd16 .lr .r6 .r6 .id, .op2 .uadd16 .lr .lr .lr .id, .op2 .uadd16 .lr .r4 .lr .id,
  .op2 .uadd16 .sl .r7 .r7 .id, .op2 .uadd16 .sl .sl .sl .id, .op2 .uadd16 .sl .r5 .sl .id, .op2 .uadd16 .sl .sl .sl .id,
  .op2 .uadd16 .r9 .lr .sl .id, .op2 .usub16 .sl .lr .sl .id, .op2 .uadd16 .r8 .r7 .r7 .id, .op2 .uadd16 .r7 .r8 .r7 .id,
  .op2 .uadd16 .r7 .r7 .r6 .id, .op2 .uadd16 .r8 .r7 .r7 .id, .op2 .uadd16 .r7 .r7 .r8 .id, .op2 .uadd16 .r7 .r7 .r5 .id,
  .op2 .uadd16 .r8 .r7 .r7 .id, .op2 .uadd16 .r7 .r7 .r8 .id, .op2 .uadd16 .r7 .r7 .r4 .id, .str .fp .r3 52 .off, .str .ip .r3 180 .off,
  .str .r9 .r3 308 .off, .str .sl .r3 436 .off, .str .r7 .r3 564 .off, .ldr .r4 .r1 56 .off, .ldr .r5 .r1 184 .off,
  .ldr .r6 .r1 312 .off, .ldr .r7 .r1 440 .off, .str .r7 .sp 696 .off, .op2 .uadd16 .lr .r4 .r6 .id, .op2 .uadd16 .ip .r5 .r7 .id,
  .op2 .uadd16 .fp .lr .ip .id, .op2 .usub16 .ip .lr .ip .id, .op2 .uadd16 .lr .r6 .r6 .id, .op2 .uadd16 .lr .lr .lr .id,
  .op2 .uadd16 .lr .r4 .lr .id, .op2 .uadd16 .sl .r7 .r7 .id, .op2 .uadd16 .sl .sl .sl .id, .op2 .uadd16 .sl .r5 .sl .id,
  .op2 .uadd16 .sl .sl .sl .id, .op2 .uadd16 .r9 .lr .sl .id, .op2 .usub16 .sl .lr .sl .id, .op2 .uadd16 .r8 .r7 .r7 .id,
  .op2 .uadd16 .r7 .r8 .r7 .id, .op2 .uadd16 .r7 .r7 .r6 .id, .op2 .uadd16 .r8 .r7 .r7 .id, .op2 .uadd16 .r7 .r7 .r8 .id,
  .op2 .uadd16 .r7 .r7 .r5 .id, .op2 .uadd16 .r8 .r7 .r7 .id, .op2 .uadd16 .r7 .r7 .r8 .id, .op2 .uadd16 .r7 .r7 .r4 .id,
  .str .fp .sp 56 .off, .str .ip .sp 184 .off, .str .r9 .sp 312 .off, .str .sl .sp 440 .off, .str .r7 .sp 568 .off, .ldr .r4 .r2 56 .off,
  .ldr .r5 .r2 184 .off, .ldr .r6 .r2 312 .off, .ldr .r7 .r2 440 .off, .str .r7 .r3 696 .off, .op2 .uadd16 .lr .r4 .r6 .id,
  .op2 .uadd16 .ip .r5 .r7 .id, .op2 .uadd16 .fp .lr .ip .id, .op2 .usub16 .ip .lr .ip .id, .op2 .uadd16 .lr .r6 .r6 .id,
  .op2 .uadd16 .lr .lr .lr .id, .op2 .uadd16 .lr .r4 .lr .id, .op2 .uadd16 .sl .r7 .r7 .id, .op2 .uadd16 .sl .sl .sl .id,
  .op2 .uadd16 .sl .r5 .sl .id, .op2 .uadd16 .sl .sl .sl .id, .op2 .uadd16 .r9 .lr .sl .id, .op2 .usub16 .sl .lr .sl .id,
  .op2 .uadd16 .r8 .r7 .r7 .id, .op2 .uadd16 .r7 .r8 .r7 .id, .op2 .uadd16 .r7 .r7 .r6 .id, .op2 .uadd16 .r8 .r7 .r7 .id,
  .op2 .uadd16 .r7 .r7 .r8 .id, .op2 .uadd16 .r7 .r7 .r5 .id, .op2 .uadd16 .r8 .r7 .r7 .id, .op2 .uadd16 .r7 .r7 .r8 .id,
  .op2 .uadd16 .r7 .r7 .r4 .id, .str .fp .r3 56 .off, .str .ip .r3 184 .off]

/-- mult_toom4_256_16.s:2211-2330 -/
def polymul_asm_9 : List Ins := [
  .str .r9 .r3 312 .off, .str .sl .r3 440 .off, .str .r7 .r3 568 .off, .ldr .r4 .r1 60 .off, .ldr .r5 .r1 188 .off,
  .ldr .r6 .r1 316 .off, .ldr .r7 .r1 444 .off, .str .r7 .sp 700 .off, .op2 .uadd16 .lr .r4 .r6 .id, .op2 .uadd16 .ip .r5 .r7 .id,
  .op2 .uadd16 .fp .lr .ip .id, .op2 .usub16 .ip .lr .ip .id, .op2 .uadd16 .lr .r6 .r6 .id, .op2 .uadd16 .lr .lr .lr .id,
  .op2 .uadd16 .lr .r4 .lr .id, .op2 .uadd16 .sl .r7 .r7 .id, .op2 .uadd16 .sl .sl .sl .id, .op2 .uadd16 .sl .r5 .sl .id,
  .op2 .uadd16 .sl .sl .sl .id, .op2 .uadd16 .r9 .lr .sl .id, .op2 .usub16 .sl .lr .sl .id, .op2 .uadd16 .r8 .r7 .r7 .id,
  .op2 .uadd16 .r7 .r8 .r7 .id, .op2 .uadd16 .r7 .r7 .r6 .id, .op2 .uadd16 .r8 .r7 .r7 .id, .op2 .uadd16 .r7 .r7 .r8 .id,
  .op2 .uadd16 .r7 .r7 .r5 .id, .op2 .uadd16 .r8 .r7 .r7 .id, .op2 .uadd16 .r7 .r7 .r8 .id, .op2 .uadd16 .r7 .r7 .r4 .id,
  .str .fp .sp 60 .off, .str .ip .sp 188 .off, .str .r9 .sp 316 .off, .str .sl .sp 444 .off, .str .r7 .sp 572 .off, .ldr .r4 .r2 60 .off,
  .ldr .r5 .r2 188 .off, .ldr .r6 .r2 316 .off, .ldr .r7 .r2 444 .off, .str .r7 .r3 700 .off, .op2 .uadd16 .lr .r4 .r6 .id,
  .op2 .uadd16 .ip .r5 .r7 .id, .op2 .uadd16 .fp .lr .ip .id, .op2 .usub16 .ip .lr .ip .id, .op2 .uadd16 .lr .r6 .r6 .id,
  .op2 .uadd16 .lr .lr .lr .id, .op2 .uadd16 .lr .r4 .lr .id, .op2 .uadd16 .sl .r7 .r7 .id, .op2 .uadd16 .sl .sl .sl .id,
  .op2 .uadd16 .sl .r5 .sl .id, .op2 .uadd16 .sl .sl .sl .id, .op2 .uadd16 .r9 .lr .sl .id, .op2 .usub16 .sl .lr .sl .id,
  .op2 .uadd16 .r8 .r7 .r7 .id, .op2 .uadd16 .r7 .r8 .r7 .id, .op2 .uadd16 .r7 .r7 .r6 .id, .op2 .uadd16 .r8 .r7 .r7 .id,
  .op2 .uadd16 .r7 .r7 .r8 .id, .op2 .uadd16 .r7 .r7 .r5 .id, .op2 .uadd16 .r8 .r7 .r7 .id, .op2 .uadd16 .r7 .r7 .r8 .id,
  .op2 .uadd16 .r7 .r7 .r4 .id, .str .fp .r3 60 .off, .str .ip .r3 188 .off, .str .r9 .r3 316 .off, .str .sl .r3 444 .off,
  .str .r7 .r3 572 .off, .ldr .r4 .r1 64 .off, .ldr .r5 .r1 192 .off, .ldr .r6 .r1 320 .off, .ldr .r7 .r1 448 .off,
  .str .r7 .sp 704 .off, .op2 .uadd16 .lr .r4 .r6 .id, .op2 .uadd16 .ip .r5 .r7 .id, .op2 .uadd16 .fp .lr .ip .id,
  .op2 .usub16 .ip .lr .ip .id, .op2 .uadd16 .lr .r6 .r6 .id, .op2 .uadd16 .lr .lr .lr .id, .op2 .uadd16 .lr .r4 .lr .id,
  .op2 .uadd16 .sl .r7 .r7 .id, .op2 .uadd16 .sl .sl .sl .id, .op2 .uadd16 .sl .r5 .sl .id, .op2 .uadd16 .sl .sl .sl .id,
  .op2 .uadd16 .r9 .lr .sl .id, .op2 .usub16 .sl .lr .sl .id, .op2 .uadd16 .r8 .r7 .r7 .id, .op2 .uadd16 .r7 .r8 .r7 .id,
  .op2 .uadd16 .r7 .r7 .r6 .id, .op2 .uadd16 .r8 .r7 .r7 .id, .op2 .uadd16 .r7 .r7 .r8 .id, .op2 .uadd16 .r7 .r7 .r5 .id,
  .op2 .uadd16 .r8 .r7 .r7 .id, .op2 .uadd16 .r7 .r7 .r8 .id, .op2 .uadd16 .r7 .r7 .r4 .id, .str .fp .sp 64 .off, .str .ip .sp 192 .off,
  .str .r9 .sp 320 .off, .str .sl .sp 448 .off, .str .r7 .sp 576 .off, .ldr .r4 .r2 64 .off, .ldr .r5 .r2 192 .off,
  .ldr .r6 .r2 320 .off, .ldr .r7 .r2 448 .off, .str .r7 .r3 704 .off, .op2 .uadd16 .lr .r4 .r6 .id, .op2 .uadd16 .ip .r5 .r7 .id,
  .op2 .uadd16 .fp .lr .ip .id, .op2 .usub16 .ip .lr .ip .id, .op2 .uadd16 .lr .r6 .r6 .id, .op2 .uadd16 .lr .lr .lr .id,
  .op2 .uadd16 .lr .r4 .lr .id, .op2 .uadd16 .sl .r7 .r7 .id, .op2 .uadd16 .sl .sl .sl .id, .op2 .uadd16 .sl .r5 .sl .id,
  .op2 .uadd16 .sl .sl .sl .id, .op2 .uadd16 .r9 .lr .sl .id, .op2 .usub16 .sl .lr .sl .id, .op2 .uadd16 .r8 .r7 .r7 .id,
  .op2 .uadd16 .r7 .r8 .r7 .id, .op2 .uadd16 .r7 .r7 .r6 .id]

/-- mult_toom4_256_16.s:2331-2450 -/
def polymul_asm_10 : List Ins := [
  .op2 .uadd16 .r8 .r7 .r7 .id, .op2 .uadd16 .r7 .r7 .r8 .id, .op2 .uadd16 .r7 .r7 .r5 .id, .op2 .uadd16 .r8 .r7 .r7 .id,
  .op2 .uadd16 .r7 .r7 .r8 .id, .op2 .uadd16 .r7 .r7 .r4 .id, .str .fp .r3 64 .off, .str .ip .r3 192 .off, .str .r9 .r3 320 .off,
  .str .sl .r3 448 .off, .str .r7 .r3 576 .off, .ldr .r4 .r1 68 .off, .ldr .r5 .r1 196 .off, .ldr .r6 .r1 324 .off,
  .ldr .r7 .r1 452 .off, .str .r7 .sp 708 .off, .op2 .uadd16 .lr .r4 .r6 .id, .op2 .uadd16 .ip .r5 .r7 .id, .op2 .uadd16 .fp .lr .ip .id,
  .op2 .usub16 .ip .lr .ip .id, .op2 .uadd16 .lr .r6 .r6 .id, .op2 .uadd16 .lr .lr .lr .id, .op2 .uadd16 .lr .r4 .lr .id,
  .op2 .uadd16 .sl .r7 .r7 .id, .op2 .uadd16 .sl .sl .sl .id, .op2 .uadd16 .sl .r5 .sl .id, .op2 .uadd16 .sl .sl .sl .id,
  .op2 .uadd16 .r9 .lr .sl .id, .op2 .usub16 .sl .lr .sl .id, .op2 .uadd16 .r8 .r7 .r7 .id, .op2 .uadd16 .r7 .r8 .r7 .id,
  .op2 .uadd16 .r7 .r7 .r6 .id, .op2 .uadd16 .r8 .r7 .r7 .id, .op2 .uadd16 .r7 .r7 .r8 .id, .op2 .uadd16 .r7 .r7 .r5 .id,
  .op2 .uadd16 .r8 .r7 .r7 .id, .op2 .uadd16 .r7 .r7 .r8 .id, .op2 .uadd16 .r7 .r7 .r4 .id, .str .fp .sp 68 .off, .str .ip .sp 196 .off,
  .str .r9 .sp 324 .off, .str .sl .sp 452 .off, .str .r7 .sp 580 .off, .ldr .r4 .r2 68 .off, .ldr .r5 .r2 196 .off,
  .ldr .r6 .r2 324 .off, .ldr .r7 .r2 452 .off, .str .r7 .r3 708 .off, .op2 .uadd16 .lr .r4 .r6 .id, .op2 .uadd16 .ip .r5 .r7 .id,
  .op2 .uadd16 .fp .lr .ip .id, .op2 .usub16 .ip .lr .ip .id, .op2 .uadd16 .lr .r6 .r6 .id, .op2 .uadd16 .lr .lr .lr .id,
  .op2 .uadd16 .lr .r4 .lr .id, .op2 .uadd16 .sl .r7 .r7 .id, .op2 .uadd16 .sl .sl .sl .id, .op2 .uadd16 .sl .r5 .sl .id,
  .op2 .uadd16 .sl .sl .sl .id, .op2 .uadd16 .r9 .lr .sl .id, .op2 .usub16 .sl .lr .sl .id, .op2 .uadd16 .r8 .r7 .r7 .id,
  .op2 .uadd16 .r7 .r8 .r7 .id, .op2 .uadd16 .r7 .r7 .r6 .id, .op2 .uadd16 .r8 .r7 .r7 .id, .op2 .uadd16 .r7 .r7 .r8 .id,
  .op2 .uadd16 .r7 .r7 .r5 .id, .op2 .uadd16 .r8 .r7 .r7 .id, .op2 .uadd16 .r7 .r7 .r8 .id, .op2 .uadd16 .r7 .r7 .r4 .id,
  .str .fp .r3 68 .off, .str .ip .r3 196 .off, .str .r9 .r3 324 .off, .str .sl .r3 452 .off, .str .r7 .r3 580 .off, .ldr .r4 .r1 72 .off,
  .ldr .r5 .r1 200 .off, .ldr .r6 .r1 328 .off, .ldr .r7 .r1 456 .off, .str .r7 .sp 712 .off, .op2 .uadd16 .lr .r4 .r6 .id,
  .op2 .uadd16 .ip .r5 .r7 .id, .op2 .uadd16 .fp .lr .ip .id, .op2 .usub16 .ip .lr .ip .id, .op2 .uadd16 .lr .r6 .r6 .id,
  .op2 .uadd16 .lr .lr .lr .id, .op2 .uadd16 .lr .r4 .lr .id, .op2 .uadd16 .sl .r7 .r7 .id, .op2 .uadd16 .sl .sl .sl .id,
  .op2 .uadd16 .sl .r5 .sl .id, .op2 .uadd16 .sl .sl .sl .id, .op2 .uadd16 .r9 .lr .sl .id, .op2 .usub16 .sl .lr .sl .id,
  .op2 .uadd16 .r8 .r7 .r7 .id, .op2 .uadd16 .r7 .r8 .r7 .id, .op2 .uadd16 .r7 .r7 .r6 .id, .op2 .uadd16 .r8 .r7 .r7 .id,
  .op2 .uadd16 .r7 .r7 .r8 .id, .op2 .uadd16 .r7 .r7 .r5 .id, .op2 .uadd16 .r8 .r7 .r7 .id, .op2 .uadd16 .r7 .r7 .r8 .id,
  .op2 .uadd16 .r7 .r7 .r4 .id, .str .fp .sp 72 .off, .str .ip .sp 200 .off, .str .r9 .sp 328 .off, .str .sl .sp 456 .off,
  .str .r7 .sp 584 .off, .ldr .r4 .r2 72 .off, .ldr .r5 .r2 200 .off, .ldr .r6 .r2 328 .off, .ldr .r7 .r2 456 .off,
  .str .r7 .r3 712 .off, .op2 .uadd16 .lr .r4 .r6 .id, .op2 .uadd16 .ip .r5 .r7 .id, .op2 .uadd16 .fp .lr .ip .id,
  .op2 .usub16 .ip .lr .ip .id, .op2 .uadd16 .lr .r6 .r6 .id, .op2 .uadd16 .lr .lr .lr .id, .op2 .uadd16 .lr .r4 .lr .id,
  .op2 .uadd16 .sl .r7 .r7 .id]

/-- mult_toom4_256_16.s:2451-2570 -/
def polymul_asm_11 : List Ins := [
  .op2 .uadd16 .sl .sl .sl .id, .op2 .uadd16 .sl .r5 .sl .id, .op2 .uadd16 .sl .sl .sl .id, .op2 .uadd16 .r9 .lr .sl .id,
  .op2 .usub16 .sl .lr .sl .id, .op2 .uadd16 .r8 .r7 .r7 .id, .op2 .uadd16 .r7 .r8 .r7 .id, .op2 .uadd16 .r7 .r7 .r6 .id,
  .op2 .uadd16 .r8 .r7 .r7 .id, .op2 .uadd16 .r7 .r7 .r8 .id, .op2 .uadd16 .r7 .r7 .r5 .id, .op2 .uadd16 .r8 .r7 .r7 .id,
  .op2 .uadd16 .r7 .r7 .r8 .id, .op2 .uadd16 .r7 .r7 .r4 .id, .str .fp .r3 72 .off, .str .ip .r3 200 .off, .str .r9 .r3 328 .off,
  .str .sl .r3 456 .off, .str .r7 .r3 584 .off, .ldr .r4 .r1 76 .off, .ldr .r5 .r1 204 .off, .ldr .r6 .r1 332 .off,
  .ldr .r7 .r1 460 .off, .str .r7 .sp 716 .off, .op2 .uadd16 .lr .r4 .r6 .id, .op2 .uadd16 .ip .r5 .r7 .id, .op2 .uadd16 .fp .lr .ip .id,
  .op2 .usub16 .ip .lr .ip .id, .op2 .uadd16 .lr .r6 .r6 .id, .op2 .uadd16 .lr .lr .lr .id, .op2 .uadd16 .lr .r4 .lr .id,
  .op2 .uadd16 .sl .r7 .r7 .id, .op2 .uadd16 .sl .sl .sl .id, .op2 .uadd16 .sl .r5 .sl .id, .op2 .uadd16 .sl .sl .sl .id,
  .op2 .uadd16 .r9 .lr .sl .id, .op2 .usub16 .sl .lr .sl .id, .op2 .uadd16 .r8 .r7 .r7 .id, .op2 .uadd16 .r7 .r8 .r7 .id,
  .op2 .uadd16 .r7 .r7 .r6 .id, .op2 .uadd16 .r8 .r7 .r7 .id, .op2 .uadd16 .r7 .r7 .r8 .id, .op2 .uadd16 .r7 .r7 .r5 .id,
  .op2 .uadd16 .r8 .r7 .r7 .id, .op2 .uadd16 .r7 .r7 .r8 .id, .op2 .uadd16 .r7 .r7 .r4 .id, .str .fp .sp 76 .off, .str .ip .sp 204 .off,
  .str .r9 .sp 332 .off, .str .sl .sp 460 .off, .str .r7 .sp 588 .off, .ldr .r4 .r2 76 .off, .ldr .r5 .r2 204 .off,
  .ldr .r6 .r2 332 .off, .ldr .r7 .r2 460 .off, .str .r7 .r3 716 .off, .op2 .uadd16 .lr .r4 .r6 .id, .op2 .uadd16 .ip .r5 .r7 .id,
  .op2 .uadd16 .fp .lr .ip .id, .op2 .usub16 .ip .lr .ip .id, .op2 .uadd16 .lr .r6 .r6 .id, .op2 .uadd16 .lr .lr .lr .id,
  .op2 .uadd16 .lr .r4 .lr .id, .op2 .uadd16 .sl .r7 .r7 .id, .op2 .uadd16 .sl .sl .sl .id, .op2 .uadd16 .sl .r5 .sl .id,
  .op2 .uadd16 .sl .sl .sl .id, .op2 .uadd16 .r9 .lr .sl .id, .op2 .usub16 .sl .lr .sl .id, .op2 .uadd16 .r8 .r7 .r7 .id,
  .op2 .uadd16 .r7 .r8 .r7 .id, .op2 .uadd16 .r7 .r7 .r6 .id, .op2 .uadd16 .r8 .r7 .r7 .id, .op2 .uadd16 .r7 .r7 .r8 .id,
  .op2 .uadd16 .r7 .r7 .r5 .id, .op2 .uadd16 .r8 .r7 .r7 .id, .op2 .uadd16 .r7 .r7 .r8 .id, .op2 .uadd16 .r7 .r7 .r4 .id,
  .str .fp .r3 76 .off, .str .ip .r3 204 .off, .str .r9 .r3 332 .off, .str .sl .r3 460 .off, .str .r7 .r3 588 .off, .ldr .r4 .r1 80 .off,
  .ldr .r5 .r1 208 .off, .ldr .r6 .r1 336 .off, .ldr .r7 .r1 464 .off, .str .r7 .sp 720 .off, .op2 .uadd16 .lr .r4 .r6 .id,
  .op2 .uadd16 .ip .r5 .r7 .id, .op2 .uadd16 .fp .lr .ip .id, .op2 .usub16 .ip .lr .ip .id, .op2 .uadd16 .lr .r6 .r6 .id,
  .op2 .uadd16 .lr .lr .lr .id, .op2 .uadd16 .lr .r4 .lr .id, .op2 .uadd16 .sl .r7 .r7 .id, .op2 .uadd16 .sl .sl .sl .id,
  .op2 .uadd16 .sl .r5 .sl .id, .op2 .uadd16 .sl .sl .sl .id, .op2 .uadd16 .r9 .lr .sl .id, .op2 .usub16 .sl .lr .sl .id,
  .op2 .uadd16 .r8 .r7 .r7 .id, .op2 .uadd16 .r7 .r8 .r7 .id, .op2 .uadd16 .r7 .r7 .r6 .id, .op2 .uadd16 .r8 .r7 .r7 .id,
  .op2 .uadd16 .r7 .r7 .r8 .id, .op2 .uadd16 .r7 .r7 .r5 .id, .op2 .uadd16 .r8 .r7 .r7 .id, .op2 .uadd16 .r7 .r7 .r8 .id,
  .op2 .uadd16 .r7 .r7 .r4 .id, .str .fp .sp 80 .off, .str .ip .sp 208 .off, .str .r9 .sp 336 .off, .str .sl .sp 464 .off,
  .str .r7 .sp 592 .off, .ldr .r4 .r2 80 .off, .ldr .r5 .r2 208 .off, .ldr .r6 .r2 336 .off, .ldr .r7 .r2 464 .off,
  .str .r7 .r3 720 .off]

/-- mult_toom4_256_16.s:2571-2690 -/
def polymul_asm_12 : List Ins := [
  .op2 .uadd16 .lr .r4 .r6 .id, .op2 .uadd16 .ip .r5 .r7 .id, .op2 .uadd16 .fp .lr .ip .id, .op2 .usub16 .ip .lr .ip .id,
  .op2 .uadd16 .lr .r6 .r6 .id, .op2 .uadd16 .lr .lr .lr .id, .op2 .uadd16 .lr .r4 .lr .id, .op2 .uadd16 .sl .r7 .r7 .id,
  .op2 .uadd16 .sl .sl .sl .id, .op2 .uadd16 .sl .r5 .sl .id, .op2 .uadd16 .sl .sl .sl .id, .op2 .uadd16 .r9 .lr .sl .id,
  .op2 .usub16 .sl .lr .sl .id, .op2 .uadd16 .r8 .r7 .r7 .id, .op2 .uadd16 .r7 .r8 .r7 .id, .op2 .uadd16 .r7 .r7 .r6 .id,
  .op2 .uadd16 .r8 .r7 .r7 .id, .op2 .uadd16 .r7 .r7 .r8 .id, .op2 .uadd16 .r7 .r7 .r5 .id, .op2 .uadd16 .r8 .r7 .r7 .id,
  .op2 .uadd16 .r7 .r7 .r8 .id, .op2 .uadd16 .r7 .r7 .r4 .id, .str .fp .r3 80 .off, .str .ip .r3 208 .off, .str .r9 .r3 336 .off,
  .str .sl .r3 464 .off, .str .r7 .r3 592 .off, .ldr .r4 .r1 84 .off, .ldr .r5 .r1 212 .off, .ldr .r6 .r1 340 .off,
  .ldr .r7 .r1 468 .off, .str .r7 .sp 724 .off, .op2 .uadd16 .lr .r4 .r6 .id, .op2 .uadd16 .ip .r5 .r7 .id, .op2 .uadd16 .fp .lr .ip .id,
  .op2 .usub16 .ip .lr .ip .id, .op2 .uadd16 .lr .r6 .r6 .id, .op2 .uadd16 .lr .lr .lr .id, .op2 .uadd16 .lr .r4 .lr .id,
  .op2 .uadd16 .sl .r7 .r7 .id, .op2 .uadd16 .sl .sl .sl .id, .op2 .uadd16 .sl .r5 .sl .id, .op2 .uadd16 .sl .sl .sl .id,
  .op2 .uadd16 .r9 .lr .sl .id, .op2 .usub16 .sl .lr .sl .id, .op2 .uadd16 .r8 .r7 .r7 .id, .op2 .uadd16 .r7 .r8 .r7 .id,
  .op2 .uadd16 .r7 .r7 .r6 .id, .op2 .uadd16 .r8 .r7 .r7 .id, .op2 .uadd16 .r7 .r7 .r8 .id, .op2 .uadd16 .r7 .r7 .r5 .id,
  .op2 .uadd16 .r8 .r7 .r7 .id, .op2 .uadd16 .r7 .r7 .r8 .id, .op2 .uadd16 .r7 .r7 .r4 .id, .str .fp .sp 84 .off, .str .ip .sp 212 .off,
  .str .r9 .sp 340 .off, .str .sl .sp 468 .off, .str .r7 .sp 596 .off, .ldr .r4 .r2 84 .off, .ldr .r5 .r2 212 .off,
  .ldr .r6 .r2 340 .off, .ldr .r7 .r2 468 .off, .str .r7 .r3 724 .off, .op2 .uadd16 .lr .r4 .r6 .id, .op2 .uadd16 .ip .r5 .r7 .id,
  .op2 .uadd16 .fp .lr .ip .id, .op2 .usub16 .ip .lr .ip .id, .op2 .uadd16 .lr .r6 .r6 .id, .op2 .uadd16 .lr .lr .lr .id,
  .op2 .uadd16 .lr .r4 .lr .id, .op2 .uadd16 .sl .r7 .r7 .id, .op2 .uadd16 .sl .sl .sl .id, .op2 .uadd16 .sl .r5 .sl .id,
  .op2 .uadd16 .sl .sl .sl .id, .op2 .uadd16 .r9 .lr .sl .id, .op2 .usub16 .sl .lr .sl .id, .op2 .uadd16 .r8 .r7 .r7 .id,
  .op2 .uadd16 .r7 .r8 .r7 .id, .op2 .uadd16 .r7 .r7 .r6 .id, .op2 .uadd16 .r8 .r7 .r7 .id, .op2 .uadd16 .r7 .r7 .r8 .id,
  .op2 .uadd16 .r7 .r7 .r5 .id, .op2 .uadd16 .r8 .r7 .r7 .id, .op2 .uadd16 .r7 .r7 .r8 .id, .op2 .uadd16 .r7 .r7 .r4 .id,
  .str .fp .r3 84 .off, .str .ip .r3 212 .off, .str .r9 .r3 340 .off, .str .sl .r3 468 .off, .str .r7 .r3 596 .off, .ldr .r4 .r1 88 .off,
  .ldr .r5 .r1 216 .off, .ldr .r6 .r1 344 .off, .ldr .r7 .r1 472 .off, .str .r7 .sp 728 .off, .op2 .uadd16 .lr .r4 .r6 .id,
  .op2 .uadd16 .ip .r5 .r7 .id, .op2 .uadd16 .fp .lr .ip .id, .op2 .usub16 .ip .lr .ip .id, .op2 .uadd16 .lr .r6 .r6 .id,
  .op2 .uadd16 .lr .lr .lr .id, .op2 .uadd16 .lr .r4 .lr .id, .op2 .uadd16 .sl .r7 .r7 .id, .op2 .uadd16 .sl .sl .sl .id,
  .op2 .uadd16 .sl .r5 .sl .id, .op2 .uadd16 .sl .sl .sl .id, .op2 .uadd16 .r9 .lr .sl .id, .op2 .usub16 .sl .lr .sl .id,
  .op2 .uadd16 .r8 .r7 .r7 .id, .op2 .uadd16 .r7 .r8 .r7 .id, .op2 .uadd16 .r7 .r7 .r6 .id, .op2 .uadd16 .r8 .r7 .r7 .id,
  .op2 .uadd16 .r7 .r7 .r8 .id, .op2 .uadd16 .r7 .r7 .r5 .id, .op2 .uadd16 .r8 .r7 .r7 .id, .op2 .uadd16 .r7 .r7 .r8 .id,
  .op2 .uadd16 .r7 .r7 .r4 .id, .str .fp .sp 88 .off, .str .ip .sp 216 .off]

/-- mult_toom4_256_16.s:2691-2810 -/
def polymul_asm_13 : List Ins := [
  .str .r9 .sp 344 .off, .str .sl .sp 472 .off, .str .r7 .sp 600 .off, .ldr .r4 .r2 88 .off, .ldr .r5 .r2 216 .off,
  .ldr .r6 .r2 344 .off, .ldr .r7 .r2 472 .off, .str .r7 .r3 728 .off, .op2 .uadd16 .lr .r4 .r6 .id, .op2 .uadd16 .ip .r5 .r7 .id,
  .op2 .uadd16 .fp .lr .ip .id, .op2 .usub16 .ip .lr .ip .id, .op2 .uadd16 .lr .r6 .r6 .id, .op2 .uadd16 .lr .lr .lr .id,
  .op2 .uadd16 .lr .r4 .lr .id, .op2 .uadd16 .sl .r7 .r7 .id, .op2 .uadd16 .sl .sl .sl .id, .op2 .uadd16 .sl .r5 .sl .id,
  .op2 .uadd16 .sl .sl .sl .id, .op2 .uadd16 .r9 .lr .sl .id, .op2 .usub16 .sl .lr .sl .id, .op2 .uadd16 .r8 .r7 .r7 .id,
  .op2 .uadd16 .r7 .r8 .r7 .id, .op2 .uadd16 .r7 .r7 .r6 .id, .op2 .uadd16 .r8 .r7 .r7 .id, .op2 .uadd16 .r7 .r7 .r8 .id,
  .op2 .uadd16 .r7 .r7 .r5 .id, .op2 .uadd16 .r8 .r7 .r7 .id, .op2 .uadd16 .r7 .r7 .r8 .id, .op2 .uadd16 .r7 .r7 .r4 .id,
  .str .fp .r3 88 .off, .str .ip .r3 216 .off, .str .r9 .r3 344 .off, .str .sl .r3 472 .off, .str .r7 .r3 600 .off, .ldr .r4 .r1 92 .off,
  .ldr .r5 .r1 220 .off, .ldr .r6 .r1 348 .off, .ldr .r7 .r1 476 .off, .str .r7 .sp 732 .off, .op2 .uadd16 .lr .r4 .r6 .id,
  .op2 .uadd16 .ip .r5 .r7 .id, .op2 .uadd16 .fp .lr .ip .id, .op2 .usub16 .ip .lr .ip .id, .op2 .uadd16 .lr .r6 .r6 .id,
  .op2 .uadd16 .lr .lr .lr .id, .op2 .uadd16 .lr .r4 .lr .id, .op2 .uadd16 .sl .r7 .r7 .id, .op2 .uadd16 .sl .sl .sl .id,
  .op2 .uadd16 .sl .r5 .sl .id, .op2 .uadd16 .sl .sl .sl .id, .op2 .uadd16 .r9 .lr .sl .id, .op2 .usub16 .sl .lr .sl .id,
  .op2 .uadd16 .r8 .r7 .r7 .id, .op2 .uadd16 .r7 .r8 .r7 .id, .op2 .uadd16 .r7 .r7 .r6 .id, .op2 .uadd16 .r8 .r7 .r7 .id,
  .op2 .uadd16 .r7 .r7 .r8 .id, .op2 .uadd16 .r7 .r7 .r5 .id, .op2 .uadd16 .r8 .r7 .r7 .id, .op2 .uadd16 .r7 .r7 .r8 .id,
  .op2 .uadd16 .r7 .r7 .r4 .id, .str .fp .sp 92 .off, .str .ip .sp 220 .off, .str .r9 .sp 348 .off, .str .sl .sp 476 .off,
  .str .r7 .sp 604 .off, .ldr .r4 .r2 92 .off, .ldr .r5 .r2 220 .off, .ldr .r6 .r2 348 .off, .ldr .r7 .r2 476 .off,
  .str .r7 .r3 732 .off, .op2 .uadd16 .lr .r4 .r6 .id, .op2 .uadd16 .ip .r5 .r7 .id, .op2 .uadd16 .fp .lr .ip .id,
  .op2 .usub16 .ip .lr .ip .id, .op2 .uadd16 .lr .r6 .r6 .id, .op2 .uadd16 .lr .lr .lr .id, .op2 .uadd16 .lr .r4 .lr .id,
  .op2 .uadd16 .sl .r7 .r7 .id, .op2 .uadd16 .sl .sl .sl .id, .op2 .uadd16 .sl .r5 .sl .id, .op2 .uadd16 .sl .sl .sl .id,
  .op2 .uadd16 .r9 .lr .sl .id, .op2 .usub16 .sl .lr .sl .id, .op2 .uadd16 .r8 .r7 .r7 .id, .op2 .uadd16 .r7 .r8 .r7 .id,
  .op2 .uadd16 .r7 .r7 .r6 .id, .op2 .uadd16 .r8 .r7 .r7 .id, .op2 .uadd16 .r7 .r7 .r8 .id, .op2 .uadd16 .r7 .r7 .r5 .id,
  .op2 .uadd16 .r8 .r7 .r7 .id, .op2 .uadd16 .r7 .r7 .r8 .id, .op2 .uadd16 .r7 .r7 .r4 .id, .str .fp .r3 92 .off, .str .ip .r3 220 .off,
  .str .r9 .r3 348 .off, .str .sl .r3 476 .off, .str .r7 .r3 604 .off, .ldr .r4 .r1 96 .off, .ldr .r5 .r1 224 .off,
  .ldr .r6 .r1 352 .off, .ldr .r7 .r1 480 .off, .str .r7 .sp 736 .off, .op2 .uadd16 .lr .r4 .r6 .id, .op2 .uadd16 .ip .r5 .r7 .id,
  .op2 .uadd16 .fp .lr .ip .id, .op2 .usub16 .ip .lr .ip .id, .op2 .uadd16 .lr .r6 .r6 .id, .op2 .uadd16 .lr .lr .lr .id,
  .op2 .uadd16 .lr .r4 .lr .id, .op2 .uadd16 .sl .r7 .r7 .id, .op2 .uadd16 .sl .sl .sl .id, .op2 .uadd16 .sl .r5 .sl .id,
  .op2 .uadd16 .sl .sl .sl .id, .op2 .uadd16 .r9 .lr .sl .id, .op2 .usub16 .sl .lr .sl .id, .op2 .uadd16 .r8 .r7 .r7 .id,
  .op2 .uadd16 .r7 .r8 .r7 .id, .op2 .uadd16 .r7 .r7 .r6 .id]

/-- mult_toom4_256_16.s:2811-2930 -/
def polymul_asm_14 : List Ins := [
  .op2 .uadd16 .r8 .r7 .r7 .id, .op2 .uadd16 .r7 .r7 .r8 .id, .op2 .uadd16 .r7 .r7 .r5 .id, .op2 .uadd16 .r8 .r7 .r7 .id,
  .op2 .uadd16 .r7 .r7 .r8 .id, .op2 .uadd16 .r7 .r7 .r4 .id, .str .fp .sp 96 .off, .str .ip .sp 224 .off, .str .r9 .sp 352 .off,
  .str .sl .sp 480 .off, .str .r7 .sp 608 .off, .ldr .r4 .r2 96 .off, .ldr .r5 .r2 224 .off, .ldr .r6 .r2 352 .off,
  .ldr .r7 .r2 480 .off, .str .r7 .r3 736 .off, .op2 .uadd16 .lr .r4 .r6 .id, .op2 .uadd16 .ip .r5 .r7 .id, .op2 .uadd16 .fp .lr .ip .id,
  .op2 .usub16 .ip .lr .ip .id, .op2 .uadd16 .lr .r6 .r6 .id, .op2 .uadd16 .lr .lr .lr .id, .op2 .uadd16 .lr .r4 .lr .id,
  .op2 .uadd16 .sl .r7 .r7 .id, .op2 .uadd16 .sl .sl .sl .id, .op2 .uadd16 .sl .r5 .sl .id, .op2 .uadd16 .sl .sl .sl .id,
  .op2 .uadd16 .r9 .lr .sl .id, .op2 .usub16 .sl .lr .sl .id, .op2 .uadd16 .r8 .r7 .r7 .id, .op2 .uadd16 .r7 .r8 .r7 .id,
  .op2 .uadd16 .r7 .r7 .r6 .id, .op2 .uadd16 .r8 .r7 .r7 .id, .op2 .uadd16 .r7 .r7 .r8 .id, .op2 .uadd16 .r7 .r7 .r5 .id,
  .op2 .uadd16 .r8 .r7 .r7 .id, .op2 .uadd16 .r7 .r7 .r8 .id, .op2 .uadd16 .r7 .r7 .r4 .id, .str .fp .r3 96 .off, .str .ip .r3 224 .off,
  .str .r9 .r3 352 .off, .str .sl .r3 480 .off, .str .r7 .r3 608 .off, .ldr .r4 .r1 100 .off, .ldr .r5 .r1 228 .off,
  .ldr .r6 .r1 356 .off, .ldr .r7 .r1 484 .off, .str .r7 .sp 740 .off, .op2 .uadd16 .lr .r4 .r6 .id, .op2 .uadd16 .ip .r5 .r7 .id,
  .op2 .uadd16 .fp .lr .ip .id, .op2 .usub16 .ip .lr .ip .id, .op2 .uadd16 .lr .r6 .r6 .id, .op2 .uadd16 .lr .lr .lr .id,
  .op2 .uadd16 .lr .r4 .lr .id, .op2 .uadd16 .sl .r7 .r7 .id, .op2 .uadd16 .sl .sl .sl .id, .op2 .uadd16 .sl .r5 .sl .id,
  .op2 .uadd16 .sl .sl .sl .id, .op2 .uadd16 .r9 .lr .sl .id, .op2 .usub16 .sl .lr .sl .id, .op2 .uadd16 .r8 .r7 .r7 .id,
  .op2 .uadd16 .r7 .r8 .r7 .id, .op2 .uadd16 .r7 .r7 .r6 .id, .op2 .uadd16 .r8 .r7 .r7 .id, .op2 .uadd16 .r7 .r7 .r8 .id,
  .op2 .uadd16 .r7 .r7 .r5 .id, .op2 .uadd16 .r8 .r7 .r7 .id, .op2 .uadd16 .r7 .r7 .r8 .id, .op2 .uadd16 .r7 .r7 .r4 .id,
  .str .fp .sp 100 .off, .str .ip .sp 228 .off, .str .r9 .sp 356 .off, .str .sl .sp 484 .off, .str .r7 .sp 612 .off,
  .ldr .r4 .r2 100 .off, .ldr .r5 .r2 228 .off, .ldr .r6 .r2 356 .off, .ldr .r7 .r2 484 .off, .str .r7 .r3 740 .off,
  .op2 .uadd16 .lr .r4 .r6 .id, .op2 .uadd16 .ip .r5 .r7 .id, .op2 .uadd16 .fp .lr .ip .id, .op2 .usub16 .ip .lr .ip .id,
  .op2 .uadd16 .lr .r6 .r6 .id, .op2 .uadd16 .lr .lr .lr .id, .op2 .uadd16 .lr .r4 .lr .id, .op2 .uadd16 .sl .r7 .r7 .id,
  .op2 .uadd16 .sl .sl .sl .id, .op2 .uadd16 .sl .r5 .sl .id, .op2 .uadd16 .sl .sl .sl .id, .op2 .uadd16 .r9 .lr .sl .id,
  .op2 .usub16 .sl .lr .sl .id, .op2 .uadd16 .r8 .r7 .r7 .id, .op2 .uadd16 .r7 .r8 .r7 .id, .op2 .uadd16 .r7 .r7 .r6 .id,
  .op2 .uadd16 .r8 .r7 .r7 .id, .op2 .uadd16 .r7 .r7 .r8 .id, .op2 .uadd16 .r7 .r7 .r5 .id, .op2 .uadd16 .r8 .r7 .r7 .id,
  .op2 .uadd16 .r7 .r7 .r8 .id, .op2 .uadd16 .r7 .r7 .r4 .id, .str .fp .r3 100 .off, .str .ip .r3 228 .off, .str .r9 .r3 356 .off,
  .str .sl .r3 484 .off, .str .r7 .r3 612 .off, .ldr .r4 .r1 104 .off, .ldr .r5 .r1 232 .off, .ldr .r6 .r1 360 .off,
  .ldr .r7 .r1 488 .off, .str .r7 .sp 744 .off, .op2 .uadd16 .lr .r4 .r6 .id, .op2 .uadd16 .ip .r5 .r7 .id, .op2 .uadd16 .fp .lr .ip .id,
  .op2 .usub16 .ip .lr .ip .id, .op2 .uadd16 .lr .r6 .r6 .id, .op2 .uadd16 .lr .lr .lr .id, .op2 .uadd16 .lr .r4 .lr .id,
  .op2 .uadd16 .sl .r7 .r7 .id]

/-- mult_toom4_256_16.s:2931-3050 -/
def polymul_asm_15 : List Ins := [
  .op2 .uadd16 .sl .sl .sl .id, .op2 .uadd16 .sl .r5 .sl .id, .op2 .uadd16 .sl .sl .sl .id, .op2 .uadd16 .r9 .lr .sl .id,
  .op2 .usub16 .sl .lr .sl .id, .op2 .uadd16 .r8 .r7 .r7 .id, .op2 .uadd16 .r7 .r8 .r7 .id, .op2 .uadd16 .r7 .r7 .r6 .id,
  .op2 .uadd16 .r8 .r7 .r7 .id, .op2 .uadd16 .r7 .r7 .r8 .id, .op2 .uadd16 .r7 .r7 .r5 .id, .op2 .uadd16 .r8 .r7 .r7 .id,
  .op2 .uadd16 .r7 .r7 .r8 .id, .op2 .uadd16 .r7 .r7 .r4 .id, .str .fp .sp 104 .off, .str .ip .sp 232 .off, .str .r9 .sp 360 .off,
  .str .sl .sp 488 .off, .str .r7 .sp 616 .off, .ldr .r4 .r2 104 .off, .ldr .r5 .r2 232 .off, .ldr .r6 .r2 360 .off,
  .ldr .r7 .r2 488 .off, .str .r7 .r3 744 .off, .op2 .uadd16 .lr .r4 .r6 .id, .op2 .uadd16 .ip .r5 .r7 .id, .op2 .uadd16 .fp .lr .ip .id,
  .op2 .usub16 .ip .lr .ip .id, .op2 .uadd16 .lr .r6 .r6 .id, .op2 .uadd16 .lr .lr .lr .id, .op2 .uadd16 .lr .r4 .lr .id,
  .op2 .uadd16 .sl .r7 .r7 .id, .op2 .uadd16 .sl .sl .sl .id, .op2 .uadd16 .sl .r5 .sl .id, .op2 .uadd16 .sl .sl .sl .id,
  .op2 .uadd16 .r9 .lr .sl .id, .op2 .usub16 .sl .lr .sl .id, .op2 .uadd16 .r8 .r7 .r7 .id, .op2 .uadd16 .r7 .r8 .r7 .id,
  .op2 .uadd16 .r7 .r7 .r6 .id, .op2 .uadd16 .r8 .r7 .r7 .id, .op2 .uadd16 .r7 .r7 .r8 .id, .op2 .uadd16 .r7 .r7 .r5 .id,
  .op2 .uadd16 .r8 .r7 .r7 .id, .op2 .uadd16 .r7 .r7 .r8 .id, .op2 .uadd16 .r7 .r7 .r4 .id, .str .fp .r3 104 .off, .str .ip .r3 232 .off,
  .str .r9 .r3 360 .off, .str .sl .r3 488 .off, .str .r7 .r3 616 .off, .ldr .r4 .r1 108 .off, .ldr .r5 .r1 236 .off,
  .ldr .r6 .r1 364 .off, .ldr .r7 .r1 492 .off, .str .r7 .sp 748 .off, .op2 .uadd16 .lr .r4 .r6 .id, .op2 .uadd16 .ip .r5 .r7 .id,
  .op2 .uadd16 .fp .lr .ip .id, .op2 .usub16 .ip .lr .ip .id, .op2 .uadd16 .lr .r6 .r6 .id, .op2 .uadd16 .lr .lr .lr .id,
  .op2 .uadd16 .lr .r4 .lr .id, .op2 .uadd16 .sl .r7 .r7 .id, .op2 .uadd16 .sl .sl .sl .id, .op2 .uadd16 .sl .r5 .sl .id,
  .op2 .uadd16 .sl .sl .sl .id, .op2 .uadd16 .r9 .lr .sl .id, .op2 .usub16 .sl .lr .sl .id, .op2 .uadd16 .r8 .r7 .r7 .id,
  .op2 .uadd16 .r7 .r8 .r7 .id, .op2 .uadd16 .r7 .r7 .r6 .id, .op2 .uadd16 .r8 .r7 .r7 .id, .op2 .uadd16 .r7 .r7 .r8 .id,
  .op2 .uadd16 .r7 .r7 .r5 .id, .op2 .uadd16 .r8 .r7 .r7 .id, .op2 .uadd16 .r7 .r7 .r8 .id, .op2 .uadd16 .r7 .r7 .r4 .id,
  .str .fp .sp 108 .off, .str .ip .sp 236 .off, .str .r9 .sp 364 .off, .str .sl .sp 492 .off, .str .r7 .sp 620 .off,
  .ldr .r4 .r2 108 .off, .ldr .r5 .r2 236 .off, .ldr .r6 .r2 364 .off, .ldr .r7 .r2 492 .off, .str .r7 .r3 748 .off,
  .op2 .uadd16 .lr .r4 .r6 .id, .op2 .uadd16 .ip .r5 .r7 .id, .op2 .uadd16 .fp .lr .ip .id, .op2 .usub16 .ip .lr .ip .id,
  .op2 .uadd16 .lr .r6 .r6 .id, .op2 .uadd16 .lr .lr .lr .id, .op2 .uadd16 .lr .r4 .lr .id, .op2 .uadd16 .sl .r7 .r7 .id,
  .op2 .uadd16 .sl .sl .sl .id, .op2 .uadd16 .sl .r5 .sl .id, .op2 .uadd16 .sl .sl .sl .id, .op2 .uadd16 .r9 .lr .sl .id,
  .op2 .usub16 .sl .lr .sl .id, .op2 .uadd16 .r8 .r7 .r7 .id, .op2 .uadd16 .r7 .r8 .r7 .id, .op2 .uadd16 .r7 .r7 .r6 .id,
  .op2 .uadd16 .r8 .r7 .r7 .id, .op2 .uadd16 .r7 .r7 .r8 .id, .op2 .uadd16 .r7 .r7 .r5 .id, .op2 .uadd16 .r8 .r7 .r7 .id,
  .op2 .uadd16 .r7 .r7 .r8 .id, .op2 .uadd16 .r7 .r7 .r4 .id, .str .fp .r3 108 .off, .str .ip .r3 236 .off, .str .r9 .r3 364 .off,
  .str .sl .r3 492 .off, .str .r7 .r3 620 .off, .ldr .r4 .r1 112 .off, .ldr .r5 .r1 240 .off, .ldr .r6 .r1 368 .off,
  .ldr .r7 .r1 496 .off, .str .r7 .sp 752 .off]

/-- mult_toom4_256_16.s:3051-3170 -/
def polymul_asm_16 : List Ins := [
  .op2 .uadd16 .lr .r4 .r6 .id, .op2 .uadd16 .ip .r5 .r7 .id, .op2 .uadd16 .fp .lr .ip .id, .op2 .usub16 .ip .lr .ip .id,
  .op2 .uadd16 .lr .r6 .r6 .id, .op2 .uadd16 .lr .lr .lr .id, .op2 .uadd16 .lr .r4 .lr .id, .op2 .uadd16 .sl .r7 .r7 .id,
  .op2 .uadd16 .sl .sl .sl .id, .op2 .uadd16 .sl .r5 .sl .id, .op2 .uadd16 .sl .sl .sl .id, .op2 .uadd16 .r9 .lr .sl .id,
  .op2 .usub16 .sl .lr .sl .id, .op2 .uadd16 .r8 .r7 .r7 .id, .op2 .uadd16 .r7 .r8 .r7 .id, .op2 .uadd16 .r7 .r7 .r6 .id,
  .op2 .uadd16 .r8 .r7 .r7 .id, .op2 .uadd16 .r7 .r7 .r8 .id, .op2 .uadd16 .r7 .r7 .r5 .id, .op2 .uadd16 .r8 .r7 .r7 .id,
  .op2 .uadd16 .r7 .r7 .r8 .id, .op2 .uadd16 .r7 .r7 .r4 .id, .str .fp .sp 112 .off, .str .ip .sp 240 .off, .str .r9 .sp 368 .off,
  .str .sl .sp 496 .off, .str .r7 .sp 624 .off, .ldr .r4 .r2 112 .off, .ldr .r5 .r2 240 .off, .ldr .r6 .r2 368 .off,
  .ldr .r7 .r2 496 .off, .str .r7 .r3 752 .off, .op2 .uadd16 .lr .r4 .r6 .id, .op2 .uadd16 .ip .r5 .r7 .id, .op2 .uadd16 .fp .lr .ip .id,
  .op2 .usub16 .ip .lr .ip .id, .op2 .uadd16 .lr .r6 .r6 .id, .op2 .uadd16 .lr .lr .lr .id, .op2 .uadd16 .lr .r4 .lr .id,
  .op2 .uadd16 .sl .r7 .r7 .id, .op2 .uadd16 .sl .sl .sl .id, .op2 .uadd16 .sl .r5 .sl .id, .op2 .uadd16 .sl .sl .sl .id,
  .op2 .uadd16 .r9 .lr .sl .id, .op2 .usub16 .sl .lr .sl .id, .op2 .uadd16 .r8 .r7 .r7 .id, .op2 .uadd16 .r7 .r8 .r7 .id,
  .op2 .uadd16 .r7 .r7 .r6 .id, .op2 .uadd16 .r8 .r7 .r7 .id, .op2 .uadd16 .r7 .r7 .r8 .id, .op2 .uadd16 .r7 .r7 .r5 .id,
  .op2 .uadd16 .r8 .r7 .r7 .id, .op2 .uadd16 .r7 .r7 .r8 .id, .op2 .uadd16 .r7 .r7 .r4 .id, .str .fp .r3 112 .off, .str .ip .r3 240 .off,
  .str .r9 .r3 368 .off, .str .sl .r3 496 .off, .str .r7 .r3 624 .off, .ldr .r4 .r1 116 .off, .ldr .r5 .r1 244 .off,
  .ldr .r6 .r1 372 .off, .ldr .r7 .r1 500 .off, .str .r7 .sp 756 .off, .op2 .uadd16 .lr .r4 .r6 .id, .op2 .uadd16 .ip .r5 .r7 .id,
  .op2 .uadd16 .fp .lr .ip .id, .op2 .usub16 .ip .lr .ip .id, .op2 .uadd16 .lr .r6 .r6 .id, .op2 .uadd16 .lr .lr .lr .id,
  .op2 .uadd16 .lr .r4 .lr .id, .op2 .uadd16 .sl .r7 .r7 .id, .op2 .uadd16 .sl .sl .sl .id, .op2 .uadd16 .sl .r5 .sl .id,
  .op2 .uadd16 .sl .sl .sl .id, .op2 .uadd16 .r9 .lr .sl .id, .op2 .usub16 .sl .lr .sl .id, .op2 .uadd16 .r8 .r7 .r7 .id,
  .op2 .uadd16 .r7 .r8 .r7 .id, .op2 .uadd16 .r7 .r7 .r6 .id, .op2 .uadd16 .r8 .r7 .r7 .id, .op2 .uadd16 .r7 .r7 .r8 .id,
  .op2 .uadd16 .r7 .r7 .r5 .id, .op2 .uadd16 .r8 .r7 .r7 .id, .op2 .uadd16 .r7 .r7 .r8 .id, .op2 .uadd16 .r7 .r7 .r4 .id,
  .str .fp .sp 116 .off, .str .ip .sp 244 .off, .str .r9 .sp 372 .off, .str .sl .sp 500 .off, .str .r7 .sp 628 .off,
  .ldr .r4 .r2 116 .off, .ldr .r5 .r2 244 .off, .ldr .r6 .r2 372 .off, .ldr .r7 .r2 500 .off, .str .r7 .r3 756 .off,
  .op2 .uadd16 .lr .r4 .r6 .id, .op2 .uadd16 .ip .r5 .r7 .id, .op2 .uadd16 .fp .lr .ip .id, .op2 .usub16 .ip .lr .ip .id,
  .op2 .uadd16 .lr .r6 .r6 .id, .op2 .uadd16 .lr .lr .lr .id, .op2 .uadd16 .lr .r4 .lr .id, .op2 .uadd16 .sl .r7 .r7 .id,
  .op2 .uadd16 .sl .sl .sl .id, .op2 .uadd16 .sl .r5 .sl .id, .op2 .uadd16 .sl .sl .sl .id, .op2 .uadd16 .r9 .lr .sl .id,
  .op2 .usub16 .sl .lr .sl .id, .op2 .uadd16 .r8 .r7 .r7 .id, .op2 .uadd16 .r7 .r8 .r7 .id, .op2 .uadd16 .r7 .r7 .r6 .id,
  .op2 .uadd16 .r8 .r7 .r7 .id, .op2 .uadd16 .r7 .r7 .r8 .id, .op2 .uadd16 .r7 .r7 .r5 .id, .op2 .uadd16 .r8 .r7 .r7 .id,
  .op2 .uadd16 .r7 .r7 .r8 .id, .op2 .uadd16 .r7 .r7 .r4 .id, .str .fp .r3 116 .off, .str .ip .r3 244 .off]

/-- mult_toom4_256_16.s:3171-3290 -/
def polymul_asm_17 : List Ins := [
  .str .r9 .r3 372 .off, .str .sl .r3 500 .off, .str .r7 .r3 628 .off, .ldr .r4 .r1 120 .off, .ldr .r5 .r1 248 .off,
  .ldr .r6 .r1 376 .off, .ldr .r7 .r1 504 .off, .str .r7 .sp 760 .off, .op2 .uadd16 .lr .r4 .r6 .id, .op2 .uadd16 .ip .r5 .r7 .id,
  .op2 .uadd16 .fp .lr .ip .id, .op2 .usub16 .ip .lr .ip .id, .op2 .uadd16 .lr .r6 .r6 .id, .op2 .uadd16 .lr .lr .lr .id,
  .op2 .uadd16 .lr .r4 .lr .id, .op2 .uadd16 .sl .r7 .r7 .id, .op2 .uadd16 .sl .sl .sl .id, .op2 .uadd16 .sl .r5 .sl .id,
  .op2 .uadd16 .sl .sl .sl .id, .op2 .uadd16 .r9 .lr .sl .id, .op2 .usub16 .sl .lr .sl .id, .op2 .uadd16 .r8 .r7 .r7 .id,
  .op2 .uadd16 .r7 .r8 .r7 .id, .op2 .uadd16 .r7 .r7 .r6 .id, .op2 .uadd16 .r8 .r7 .r7 .id, .op2 .uadd16 .r7 .r7 .r8 .id,
  .op2 .uadd16 .r7 .r7 .r5 .id, .op2 .uadd16 .r8 .r7 .r7 .id, .op2 .uadd16 .r7 .r7 .r8 .id, .op2 .uadd16 .r7 .r7 .r4 .id,
  .str .fp .sp 120 .off, .str .ip .sp 248 .off, .str .r9 .sp 376 .off, .str .sl .sp 504 .off, .str .r7 .sp 632 .off,
  .ldr .r4 .r2 120 .off, .ldr .r5 .r2 248 .off, .ldr .r6 .r2 376 .off, .ldr .r7 .r2 504 .off, .str .r7 .r3 760 .off,
  .op2 .uadd16 .lr .r4 .r6 .id, .op2 .uadd16 .ip .r5 .r7 .id, .op2 .uadd16 .fp .lr .ip .id, .op2 .usub16 .ip .lr .ip .id,
  .op2 .uadd16 .lr .r6 .r6 .id, .op2 .uadd16 .lr .lr .lr .id, .op2 .uadd16 .lr .r4 .lr .id, .op2 .uadd16 .sl .r7 .r7 .id,
  .op2 .uadd16 .sl .sl .sl .id, .op2 .uadd16 .sl .r5 .sl .id, .op2 .uadd16 .sl .sl .sl .id, .op2 .uadd16 .r9 .lr .sl .id,
  .op2 .usub16 .sl .lr .sl .id, .op2 .uadd16 .r8 .r7 .r7 .id, .op2 .uadd16 .r7 .r8 .r7 .id, .op2 .uadd16 .r7 .r7 .r6 .id,
  .op2 .uadd16 .r8 .r7 .r7 .id, .op2 .uadd16 .r7 .r7 .r8 .id, .op2 .uadd16 .r7 .r7 .r5 .id, .op2 .uadd16 .r8 .r7 .r7 .id,
  .op2 .uadd16 .r7 .r7 .r8 .id, .op2 .uadd16 .r7 .r7 .r4 .id, .str .fp .r3 120 .off, .str .ip .r3 248 .off, .str .r9 .r3 376 .off,
  .str .sl .r3 504 .off, .str .r7 .r3 632 .off, .ldr .r4 .r1 124 .off, .ldr .r5 .r1 252 .off, .ldr .r6 .r1 380 .off,
  .ldr .r7 .r1 508 .off, .str .r7 .sp 764 .off, .op2 .uadd16 .lr .r4 .r6 .id, .op2 .uadd16 .ip .r5 .r7 .id, .op2 .uadd16 .fp .lr .ip .id,
  .op2 .usub16 .ip .lr .ip .id, .op2 .uadd16 .lr .r6 .r6 .id, .op2 .uadd16 .lr .lr .lr .id, .op2 .uadd16 .lr .r4 .lr .id,
  .op2 .uadd16 .sl .r7 .r7 .id, .op2 .uadd16 .sl .sl .sl .id, .op2 .uadd16 .sl .r5 .sl .id, .op2 .uadd16 .sl .sl .sl .id,
  .op2 .uadd16 .r9 .lr .sl .id, .op2 .usub16 .sl .lr .sl .id, .op2 .uadd16 .r8 .r7 .r7 .id, .op2 .uadd16 .r7 .r8 .r7 .id,
  .op2 .uadd16 .r7 .r7 .r6 .id, .op2 .uadd16 .r8 .r7 .r7 .id, .op2 .uadd16 .r7 .r7 .r8 .id, .op2 .uadd16 .r7 .r7 .r5 .id,
  .op2 .uadd16 .r8 .r7 .r7 .id, .op2 .uadd16 .r7 .r7 .r8 .id, .op2 .uadd16 .r7 .r7 .r4 .id, .str .fp .sp 124 .off, .str .ip .sp 252 .off,
  .str .r9 .sp 380 .off, .str .sl .sp 508 .off, .str .r7 .sp 636 .off, .ldr .r4 .r2 124 .off, .ldr .r5 .r2 252 .off,
  .ldr .r6 .r2 380 .off, .ldr .r7 .r2 508 .off, .str .r7 .r3 764 .off, .op2 .uadd16 .lr .r4 .r6 .id, .op2 .uadd16 .ip .r5 .r7 .id,
  .op2 .uadd16 .fp .lr .ip .id, .op2 .usub16 .ip .lr .ip .id, .op2 .uadd16 .lr .r6 .r6 .id, .op2 .uadd16 .lr .lr .lr .id,
  .op2 .uadd16 .lr .r4 .lr .id, .op2 .uadd16 .sl .r7 .r7 .id, .op2 .uadd16 .sl .sl .sl .id, .op2 .uadd16 .sl .r5 .sl .id,
  .op2 .uadd16 .sl .sl .sl .id, .op2 .uadd16 .r9 .lr .sl .id, .op2 .usub16 .sl .lr .sl .id, .op2 .uadd16 .r8 .r7 .r7 .id,
  .op2 .uadd16 .r7 .r8 .r7 .id, .op2 .uadd16 .r7 .r7 .r6 .id]

/-- mult_toom4_256_16.s:3291-3305 -/
def polymul_asm_18 : List Ins := [
  .op2 .uadd16 .r8 .r7 .r7 .id, .op2 .uadd16 .r7 .r7 .r8 .id, .op2 .uadd16 .r7 .r7 .r5 .id, .op2 .uadd16 .r8 .r7 .r7 .id,
  .op2 .uadd16 .r7 .r7 .r8 .id, .op2 .uadd16 .r7 .r7 .r4 .id, .str .fp .r3 124 .off, .str .ip .r3 252 .off, .str .r9 .r3 380 .off,
  .str .sl .r3 508 .off, .str .r7 .r3 636 .off, .push [.r0], .push [.r3], .movi .fp 1544, .addi .r0 .sp 1544]

/-- mult_toom4_256_16.s:3307-3310 -/
def polymul_asm_19 : List Ins := [
  .pop [.r3], .addi .r0 .r0 256, .addi .r1 .sp 4, .addi .r2 .r3 0]

/-- mult_toom4_256_16.s:3312-3314 -/
def polymul_asm_20 : List Ins := [
  .addi .r0 .r0 256, .addi .r1 .r1 128, .addi .r2 .r2 128]

/-- mult_toom4_256_16.s:3316-3318 -/
def polymul_asm_21 : List Ins := [
  .addi .r0 .r0 256, .addi .r1 .r1 128, .addi .r2 .r2 128]

/-- mult_toom4_256_16.s:3320-3322 -/
def polymul_asm_22 : List Ins := [
  .addi .r0 .r0 256, .addi .r1 .r1 128, .addi .r2 .r2 128]

/-- mult_toom4_256_16.s:3324-3326 -/
def polymul_asm_23 : List Ins := [
  .addi .r0 .r0 256, .addi .r1 .r1 128, .addi .r2 .r2 128]

/-- mult_toom4_256_16.s:3328-3330 -/
def polymul_asm_24 : List Ins := [
  .addi .r0 .r0 256, .addi .r1 .r1 128, .addi .r2 .r2 128]

/-- mult_toom4_256_16.s:3332-3451 -/
def polymul_asm_25 : List Ins := [
  .pop [.r0], .addi .sp .sp 1536, .addi .fp .sp 1024, .movi .lr 43691, .movi .ip 52429, .ldrh .r1 .sp 0 .off, .ldrh .r2 .sp 256 .off,
  .ldrh .r3 .sp 512 .off, .ldrh .r4 .sp 768 .off, .ldrh .r5 .fp 0 .off, .ldrh .r6 .fp 256 .off, .ldrh .r7 .fp 512 .off,
  .op2 .add .r8 .r2 .r3 .id, .op1 (.lsr 1) .r8 .r8, .op2 .sub .r8 .r8 .r1 .id, .op2 .sub .r8 .r8 .r7 .id, .op2 .add .r9 .r4 .r5 .id,
  .op2 .sub .r9 .r9 .r1 (.lsl 1), .op2 .sub .r9 .r9 .r7 (.lsl 7), .op1 (.lsr 3) .r9 .r9, .op2 .sub .r9 .r9 .r8 .id,
  .op2 .mul .r9 .r9 .lr .id, .op2 .sub .r8 .r8 .r9 .id, .op2 .sub .r2 .r2 .r3 .id, .op1 (.lsr 1) .r2 .r2, .op2 .sub .r3 .r4 .r5 .id,
  .op1 (.lsr 2) .r3 .r3, .op2 .sub .r3 .r3 .r2 .id, .op2 .mul .r3 .r3 .lr .id, .op2 .add .r4 .r7 .r7 (.lsl 3), .op2 .add .r4 .r4 .r9 .id,
  .op2 .add .r4 .r4 .r4 (.lsl 3), .op2 .add .r4 .r4 .r8 .id, .op2 .add .r4 .r4 .r4 (.lsl 3), .op2 .add .r4 .r4 .r1 .id,
  .op2 .sub .r4 .r6 .r4 .id, .op2 .mul .r4 .r4 .lr .id, .op2 .sub .r4 .r4 .r2 .id, .op1 (.lsr 3) .r4 .r4, .op2 .sub .r4 .r4 .r3 .id,
  .op2 .mul .r5 .r4 .ip .id, .op2 .sub .r6 .r3 .r4 .id, .op2 .sub .r3 .r2 .r6 .id, .op2 .sub .r3 .r3 .r5 .id, .strh .r1 .r0 0 .off,
  .strh .r3 .r0 128 .off, .strh .r8 .r0 256 .off, .strh .r6 .r0 384 .off, .strh .r9 .r0 512 .off, .strh .r5 .r0 640 .off,
  .strh .r7 .r0 768 .off, .ldrh .r1 .sp 2 .off, .ldrh .r2 .sp 258 .off, .ldrh .r3 .sp 514 .off, .ldrh .r4 .sp 770 .off,
  .ldrh .r5 .fp 2 .off, .ldrh .r6 .fp 258 .off, .ldrh .r7 .fp 514 .off, .op2 .add .r8 .r2 .r3 .id, .op1 (.lsr 1) .r8 .r8,
  .op2 .sub .r8 .r8 .r1 .id, .op2 .sub .r8 .r8 .r7 .id, .op2 .add .r9 .r4 .r5 .id, .op2 .sub .r9 .r9 .r1 (.lsl 1),
  .op2 .sub .r9 .r9 .r7 (.lsl 7), .op1 (.lsr 3) .r9 .r9, .op2 .sub .r9 .r9 .r8 .id, .op2 .mul .r9 .r9 .lr .id, .op2 .sub .r8 .r8 .r9 .id,
  .op2 .sub .r2 .r2 .r3 .id, .op1 (.lsr 1) .r2 .r2, .op2 .sub .r3 .r4 .r5 .id, .op1 (.lsr 2) .r3 .r3, .op2 .sub .r3 .r3 .r2 .id,
  .op2 .mul .r3 .r3 .lr .id, .op2 .add .r4 .r7 .r7 (.lsl 3), .op2 .add .r4 .r4 .r9 .id, .op2 .add .r4 .r4 .r4 (.lsl 3),
  .op2 .add .r4 .r4 .r8 .id, .op2 .add .r4 .r4 .r4 (.lsl 3), .op2 .add .r4 .r4 .r1 .id, .op2 .sub .r4 .r6 .r4 .id,
  .op2 .mul .r4 .r4 .lr .id, .op2 .sub .r4 .r4 .r2 .id, .op1 (.lsr 3) .r4 .r4, .op2 .sub .r4 .r4 .r3 .id, .op2 .mul .r5 .r4 .ip .id,
  .op2 .sub .r6 .r3 .r4 .id, .op2 .sub .r3 .r2 .r6 .id, .op2 .sub .r3 .r3 .r5 .id, .strh .r1 .r0 2 .off, .strh .r3 .r0 130 .off,
  .strh .r8 .r0 258 .off, .strh .r6 .r0 386 .off, .strh .r9 .r0 514 .off, .strh .r5 .r0 642 .off, .strh .r7 .r0 770 .off,
  .ldrh .r1 .sp 4 .off, .ldrh .r2 .sp 260 .off, .ldrh .r3 .sp 516 .off, .ldrh .r4 .sp 772 .off, .ldrh .r5 .fp 4 .off,
  .ldrh .r6 .fp 260 .off, .ldrh .r7 .fp 516 .off, .op2 .add .r8 .r2 .r3 .id, .op1 (.lsr 1) .r8 .r8, .op2 .sub .r8 .r8 .r1 .id,
  .op2 .sub .r8 .r8 .r7 .id, .op2 .add .r9 .r4 .r5 .id, .op2 .sub .r9 .r9 .r1 (.lsl 1), .op2 .sub .r9 .r9 .r7 (.lsl 7),
  .op1 (.lsr 3) .r9 .r9, .op2 .sub .r9 .r9 .r8 .id, .op2 .mul .r9 .r9 .lr .id, .op2 .sub .r8 .r8 .r9 .id, .op2 .sub .r2 .r2 .r3 .id,
  .op1 (.lsr 1) .r2 .r2, .op2 .sub .r3 .r4 .r5 .id, .op1 (.lsr 2) .r3 .r3, .op2 .sub .r3 .r3 .r2 .id]

/-- mult_toom4_256_16.s:3452-3571 -/
def polymul_asm_26 : List Ins := [
  .op2 .mul .r3 .r3 .lr .id, .op2 .add .r4 .r7 .r7 (.lsl 3), .op2 .add .r4 .r4 .r9 .id, .op2 .add .r4 .r4 .r4 (.lsl 3),
  .op2 .add .r4 .r4 .r8 .id, .op2 .add .r4 .r4 .r4 (.lsl 3), .op2 .add .r4 .r4 .r1 .id, .op2 .sub .r4 .r6 .r4 .id,
  .op2 .mul .r4 .r4 .lr .id, .op2 .sub .r4 .r4 .r2 .id, .op1 (.lsr 3) .r4 .r4, .op2 .sub .r4 .r4 .r3 .id, .op2 .mul .r5 .r4 .ip .id,
  .op2 .sub .r6 .r3 .r4 .id, .op2 .sub .r3 .r2 .r6 .id, .op2 .sub .r3 .r3 .r5 .id, .strh .r1 .r0 4 .off, .strh .r3 .r0 132 .off,
  .strh .r8 .r0 260 .off, .strh .r6 .r0 388 .off, .strh .r9 .r0 516 .off, .strh .r5 .r0 644 .off, .strh .r7 .r0 772 .off,
  .ldrh .r1 .sp 6 .off, .ldrh .r2 .sp 262 .off, .ldrh .r3 .sp 518 .off, .ldrh .r4 .sp 774 .off, .ldrh .r5 .fp 6 .off,
  .ldrh .r6 .fp 262 .off, .ldrh .r7 .fp 518 .off, .op2 .add .r8 .r2 .r3 .id, .op1 (.lsr 1) .r8 .r8, .op2 .sub .r8 .r8 .r1 .id,
  .op2 .sub .r8 .r8 .r7 .id, .op2 .add .r9 .r4 .r5 .id, .op2 .sub .r9 .r9 .r1 (.lsl 1), .op2 .sub .r9 .r9 .r7 (.lsl 7),
  .op1 (.lsr 3) .r9 .r9, .op2 .sub .r9 .r9 .r8 .id, .op2 .mul .r9 .r9 .lr .id, .op2 .sub .r8 .r8 .r9 .id, .op2 .sub .r2 .r2 .r3 .id,
  .op1 (.lsr 1) .r2 .r2, .op2 .sub .r3 .r4 .r5 .id, .op1 (.lsr 2) .r3 .r3, .op2 .sub .r3 .r3 .r2 .id, .op2 .mul .r3 .r3 .lr .id,
  .op2 .add .r4 .r7 .r7 (.lsl 3), .op2 .add .r4 .r4 .r9 .id, .op2 .add .r4 .r4 .r4 (.lsl 3), .op2 .add .r4 .r4 .r8 .id,
  .op2 .add .r4 .r4 .r4 (.lsl 3), .op2 .add .r4 .r4 .r1 .id, .op2 .sub .r4 .r6 .r4 .id, .op2 .mul .r4 .r4 .lr .id,
  .op2 .sub .r4 .r4 .r2 .id, .op1 (.lsr 3) .r4 .r4, .op2 .sub .r4 .r4 .r3 .id, .op2 .mul .r5 .r4 .ip .id, .op2 .sub .r6 .r3 .r4 .id,
  .op2 .sub .r3 .r2 .r6 .id, .op2 .sub .r3 .r3 .r5 .id, .strh .r1 .r0 6 .off, .strh .r3 .r0 134 .off, .strh .r8 .r0 262 .off,
  .strh .r6 .r0 390 .off, .strh .r9 .r0 518 .off, .strh .r5 .r0 646 .off, .strh .r7 .r0 774 .off, .ldrh .r1 .sp 8 .off,
  .ldrh .r2 .sp 264 .off, .ldrh .r3 .sp 520 .off, .ldrh .r4 .sp 776 .off, .ldrh .r5 .fp 8 .off, .ldrh .r6 .fp 264 .off,
  .ldrh .r7 .fp 520 .off, .op2 .add .r8 .r2 .r3 .id, .op1 (.lsr 1) .r8 .r8, .op2 .sub .r8 .r8 .r1 .id, .op2 .sub .r8 .r8 .r7 .id,
  .op2 .add .r9 .r4 .r5 .id, .op2 .sub .r9 .r9 .r1 (.lsl 1), .op2 .sub .r9 .r9 .r7 (.lsl 7), .op1 (.lsr 3) .r9 .r9,
  .op2 .sub .r9 .r9 .r8 .id, .op2 .mul .r9 .r9 .lr .id, .op2 .sub .r8 .r8 .r9 .id, .op2 .sub .r2 .r2 .r3 .id, .op1 (.lsr 1) .r2 .r2,
  .op2 .sub .r3 .r4 .r5 .id, .op1 (.lsr 2) .r3 .r3, .op2 .sub .r3 .r3 .r2 .id, .op2 .mul .r3 .r3 .lr .id, .op2 .add .r4 .r7 .r7 (.lsl 3),
  .op2 .add .r4 .r4 .r9 .id, .op2 .add .r4 .r4 .r4 (.lsl 3), .op2 .add .r4 .r4 .r8 .id, .op2 .add .r4 .r4 .r4 (.lsl 3),
  .op2 .add .r4 .r4 .r1 .id, .op2 .sub .r4 .r6 .r4 .id, .op2 .mul .r4 .r4 .lr .id, .op2 .sub .r4 .r4 .r2 .id, .op1 (.lsr 3) .r4 .r4,
  .op2 .sub .r4 .r4 .r3 .id, .op2 .mul .r5 .r4 .ip .id, .op2 .sub .r6 .r3 .r4 .id, .op2 .sub .r3 .r2 .r6 .id, .op2 .sub .r3 .r3 .r5 .id,
  .strh .r1 .r0 8 .off, .strh .r3 .r0 136 .off, .strh .r8 .r0 264 .off, .strh .r6 .r0 392 .off, .strh .r9 .r0 520 .off,
  .strh .r5 .r0 648 .off, .strh .r7 .r0 776 .off, .ldrh .r1 .sp 10 .off, .ldrh .r2 .sp 266 .off, .ldrh .r3 .sp 522 .off,
  .ldrh .r4 .sp 778 .off, .ldrh .r5 .fp 10 .off]

/-- mult_toom4_256_16.s:3572-3691 -/
def polymul_asm_27 : List Ins := [
  .ldrh .r6 .fp 266 .off, .ldrh .r7 .fp 522 .off, .op2 .add .r8 .r2 .r3 .id, .op1 (.lsr 1) .r8 .r8, .op2 .sub .r8 .r8 .r1 .id,
  .op2 .sub .r8 .r8 .r7 .id, .op2 .add .r9 .r4 .r5 .id, .op2 .sub .r9 .r9 .r1 (.lsl 1), .op2 .sub .r9 .r9 .r7 (.lsl 7),
  .op1 (.lsr 3) .r9 .r9, .op2 .sub .r9 .r9 .r8 .id, .op2 .mul .r9 .r9 .lr .id, .op2 .sub .r8 .r8 .r9 .id, .op2 .sub .r2 .r2 .r3 .id,
  .op1 (.lsr 1) .r2 .r2, .op2 .sub .r3 .r4 .r5 .id, .op1 (.lsr 2) .r3 .r3, .op2 .sub .r3 .r3 .r2 .id, .op2 .mul .r3 .r3 .lr .id,
  .op2 .add .r4 .r7 .r7 (.lsl 3), .op2 .add .r4 .r4 .r9 .id, .op2 .add .r4 .r4 .r4 (.lsl 3), .op2 .add .r4 .r4 .r8 .id,
  .op2 .add .r4 .r4 .r4 (.lsl 3), .op2 .add .r4 .r4 .r1 .id, .op2 .sub .r4 .r6 .r4 .id, .op2 .mul .r4 .r4 .lr .id,
  .op2 .sub .r4 .r4 .r2 .id, .op1 (.lsr 3) .r4 .r4, .op2 .sub .r4 .r4 .r3 .id, .op2 .mul .r5 .r4 .ip .id, .op2 .sub .r6 .r3 .r4 .id,
  .op2 .sub .r3 .r2 .r6 .id, .op2 .sub .r3 .r3 .r5 .id, .strh .r1 .r0 10 .off, .strh .r3 .r0 138 .off, .strh .r8 .r0 266 .off,
  .strh .r6 .r0 394 .off, .strh .r9 .r0 522 .off, .strh .r5 .r0 650 .off, .strh .r7 .r0 778 .off, .ldrh .r1 .sp 12 .off,
  .ldrh .r2 .sp 268 .off, .ldrh .r3 .sp 524 .off, .ldrh .r4 .sp 780 .off, .ldrh .r5 .fp 12 .off, .ldrh .r6 .fp 268 .off,
  .ldrh .r7 .fp 524 .off, .op2 .add .r8 .r2 .r3 .id, .op1 (.lsr 1) .r8 .r8, .op2 .sub .r8 .r8 .r1 .id, .op2 .sub .r8 .r8 .r7 .id,
  .op2 .add .r9 .r4 .r5 .id, .op2 .sub .r9 .r9 .r1 (.lsl 1), .op2 .sub .r9 .r9 .r7 (.lsl 7), .op1 (.lsr 3) .r9 .r9,
  .op2 .sub .r9 .r9 .r8 .id, .op2 .mul .r9 .r9 .lr .id, .op2 .sub .r8 .r8 .r9 .id, .op2 .sub .r2 .r2 .r3 .id, .op1 (.lsr 1) .r2 .r2,
  .op2 .sub .r3 .r4 .r5 .id, .op1 (.lsr 2) .r3 .r3, .op2 .sub .r3 .r3 .r2 .id, .op2 .mul .r3 .r3 .lr .id, .op2 .add .r4 .r7 .r7 (.lsl 3),
  .op2 .add .r4 .r4 .r9 .id, .op2 .add .r4 .r4 .r4 (.lsl 3), .op2 .add .r4 .r4 .r8 .id, .op2 .add .r4 .r4 .r4 (.lsl 3),
  .op2 .add .r4 .r4 .r1 .id, .op2 .sub .r4 .r6 .r4 .id, .op2 .mul .r4 .r4 .lr .id, .op2 .sub .r4 .r4 .r2 .id, .op1 (.lsr 3) .r4 .r4,
  .op2 .sub .r4 .r4 .r3 .id, .op2 .mul .r5 .r4 .ip .id, .op2 .sub .r6 .r3 .r4 .id, .op2 .sub .r3 .r2 .r6 .id, .op2 .sub .r3 .r3 .r5 .id,
  .strh .r1 .r0 12 .off, .strh .r3 .r0 140 .off, .strh .r8 .r0 268 .off, .strh .r6 .r0 396 .off, .strh .r9 .r0 524 .off,
  .strh .r5 .r0 652 .off, .strh .r7 .r0 780 .off, .ldrh .r1 .sp 14 .off, .ldrh .r2 .sp 270 .off, .ldrh .r3 .sp 526 .off,
  .ldrh .r4 .sp 782 .off, .ldrh .r5 .fp 14 .off, .ldrh .r6 .fp 270 .off, .ldrh .r7 .fp 526 .off, .op2 .add .r8 .r2 .r3 .id,
  .op1 (.lsr 1) .r8 .r8, .op2 .sub .r8 .r8 .r1 .id, .op2 .sub .r8 .r8 .r7 .id, .op2 .add .r9 .r4 .r5 .id, .op2 .sub .r9 .r9 .r1 (.lsl 1),
  .op2 .sub .r9 .r9 .r7 (.lsl 7), .op1 (.lsr 3) .r9 .r9, .op2 .sub .r9 .r9 .r8 .id, .op2 .mul .r9 .r9 .lr .id, .op2 .sub .r8 .r8 .r9 .id,
  .op2 .sub .r2 .r2 .r3 .id, .op1 (.lsr 1) .r2 .r2, .op2 .sub .r3 .r4 .r5 .id, .op1 (.lsr 2) .r3 .r3, .op2 .sub .r3 .r3 .r2 .id,
  .op2 .mul .r3 .r3 .lr .id, .op2 .add .r4 .r7 .r7 (.lsl 3), .op2 .add .r4 .r4 .r9 .id, .op2 .add .r4 .r4 .r4 (.lsl 3),
  .op2 .add .r4 .r4 .r8 .id, .op2 .add .r4 .r4 .r4 (.lsl 3), .op2 .add .r4 .r4 .r1 .id, .op2 .sub .r4 .r6 .r4 .id,
  .op2 .mul .r4 .r4 .lr .id, .op2 .sub .r4 .r4 .r2 .id]

/-- mult_toom4_256_16.s:3692-3811 -/
def polymul_asm_28 : List Ins := [
  .op1 (.lsr 3) .r4 .r4, .op2 .sub .r4 .r4 .r3 .id, .op2 .mul .r5 .r4 .ip .id, .op2 .sub .r6 .r3 .r4 .id, .op2 .sub .r3 .r2 .r6 .id,
  .op2 .sub .r3 .r3 .r5 .id, .strh .r1 .r0 14 .off, .strh .r3 .r0 142 .off, .strh .r8 .r0 270 .off, .strh .r6 .r0 398 .off,
  .strh .r9 .r0 526 .off, .strh .r5 .r0 654 .off, .strh .r7 .r0 782 .off, .ldrh .r1 .sp 16 .off, .ldrh .r2 .sp 272 .off,
  .ldrh .r3 .sp 528 .off, .ldrh .r4 .sp 784 .off, .ldrh .r5 .fp 16 .off, .ldrh .r6 .fp 272 .off, .ldrh .r7 .fp 528 .off,
  .op2 .add .r8 .r2 .r3 .id, .op1 (.lsr 1) .r8 .r8, .op2 .sub .r8 .r8 .r1 .id, .op2 .sub .r8 .r8 .r7 .id, .op2 .add .r9 .r4 .r5 .id,
  .op2 .sub .r9 .r9 .r1 (.lsl 1), .op2 .sub .r9 .r9 .r7 (.lsl 7), .op1 (.lsr 3) .r9 .r9, .op2 .sub .r9 .r9 .r8 .id,
  .op2 .mul .r9 .r9 .lr .id, .op2 .sub .r8 .r8 .r9 .id, .op2 .sub .r2 .r2 .r3 .id, .op1 (.lsr 1) .r2 .r2, .op2 .sub .r3 .r4 .r5 .id,
  .op1 (.lsr 2) .r3 .r3, .op2 .sub .r3 .r3 .r2 .id, .op2 .mul .r3 .r3 .lr .id, .op2 .add .r4 .r7 .r7 (.lsl 3), .op2 .add .r4 .r4 .r9 .id,
  .op2 .add .r4 .r4 .r4 (.lsl 3), .op2 .add .r4 .r4 .r8 .id, .op2 .add .r4 .r4 .r4 (.lsl 3), .op2 .add .r4 .r4 .r1 .id,
  .op2 .sub .r4 .r6 .r4 .id, .op2 .mul .r4 .r4 .lr .id, .op2 .sub .r4 .r4 .r2 .id, .op1 (.lsr 3) .r4 .r4, .op2 .sub .r4 .r4 .r3 .id,
  .op2 .mul .r5 .r4 .ip .id, .op2 .sub .r6 .r3 .r4 .id, .op2 .sub .r3 .r2 .r6 .id, .op2 .sub .r3 .r3 .r5 .id, .strh .r1 .r0 16 .off,
  .strh .r3 .r0 144 .off, .strh .r8 .r0 272 .off, .strh .r6 .r0 400 .off, .strh .r9 .r0 528 .off, .strh .r5 .r0 656 .off,
  .strh .r7 .r0 784 .off, .ldrh .r1 .sp 18 .off, .ldrh .r2 .sp 274 .off, .ldrh .r3 .sp 530 .off, .ldrh .r4 .sp 786 .off,
  .ldrh .r5 .fp 18 .off, .ldrh .r6 .fp 274 .off, .ldrh .r7 .fp 530 .off, .op2 .add .r8 .r2 .r3 .id, .op1 (.lsr 1) .r8 .r8,
  .op2 .sub .r8 .r8 .r1 .id, .op2 .sub .r8 .r8 .r7 .id, .op2 .add .r9 .r4 .r5 .id, .op2 .sub .r9 .r9 .r1 (.lsl 1),
  .op2 .sub .r9 .r9 .r7 (.lsl 7), .op1 (.lsr 3) .r9 .r9, .op2 .sub .r9 .r9 .r8 .id, .op2 .mul .r9 .r9 .lr .id, .op2 .sub .r8 .r8 .r9 .id,
  .op2 .sub .r2 .r2 .r3 .id, .op1 (.lsr 1) .r2 .r2, .op2 .sub .r3 .r4 .r5 .id, .op1 (.lsr 2) .r3 .r3, .op2 .sub .r3 .r3 .r2 .id,
  .op2 .mul .r3 .r3 .lr .id, .op2 .add .r4 .r7 .r7 (.lsl 3), .op2 .add .r4 .r4 .r9 .id, .op2 .add .r4 .r4 .r4 (.lsl 3),
  .op2 .add .r4 .r4 .r8 .id, .op2 .add .r4 .r4 .r4 (.lsl 3), .op2 .add .r4 .r4 .r1 .id, .op2 .sub .r4 .r6 .r4 .id,
  .op2 .mul .r4 .r4 .lr .id, .op2 .sub .r4 .r4 .r2 .id, .op1 (.lsr 3) .r4 .r4, .op2 .sub .r4 .r4 .r3 .id, .op2 .mul .r5 .r4 .ip .id,
  .op2 .sub .r6 .r3 .r4 .id, .op2 .sub .r3 .r2 .r6 .id, .op2 .sub .r3 .r3 .r5 .id, .strh .r1 .r0 18 .off, .strh .r3 .r0 146 .off,
  .strh .r8 .r0 274 .off, .strh .r6 .r0 402 .off, .strh .r9 .r0 530 .off, .strh .r5 .r0 658 .off, .strh .r7 .r0 786 .off,
  .ldrh .r1 .sp 20 .off, .ldrh .r2 .sp 276 .off, .ldrh .r3 .sp 532 .off, .ldrh .r4 .sp 788 .off, .ldrh .r5 .fp 20 .off,
  .ldrh .r6 .fp 276 .off, .ldrh .r7 .fp 532 .off, .op2 .add .r8 .r2 .r3 .id, .op1 (.lsr 1) .r8 .r8, .op2 .sub .r8 .r8 .r1 .id,
  .op2 .sub .r8 .r8 .r7 .id, .op2 .add .r9 .r4 .r5 .id, .op2 .sub .r9 .r9 .r1 (.lsl 1), .op2 .sub .r9 .r9 .r7 (.lsl 7),
  .op1 (.lsr 3) .r9 .r9]

/-- mult_toom4_256_16.s:3812-3931 -/
def polymul_asm_29 : List Ins := [
  .op2 .sub .r9 .r9 .r8 .id, .op2 .mul .r9 .r9 .lr .id, .op2 .sub .r8 .r8 .r9 .id, .op2 .sub .r2 .r2 .r3 .id, .op1 (.lsr 1) .r2 .r2,
  .op2 .sub .r3 .r4 .r5 .id, .op1 (.lsr 2) .r3 .r3, .op2 .sub .r3 .r3 .r2 .id, .op2 .mul .r3 .r3 .lr .id, .op2 .add .r4 .r7 .r7 (.lsl 3),
  .op2 .add .r4 .r4 .r9 .id, .op2 .add .r4 .r4 .r4 (.lsl 3), .op2 .add .r4 .r4 .r8 .id, .op2 .add .r4 .r4 .r4 (.lsl 3),
  .op2 .add .r4 .r4 .r1 .id, .op2 .sub .r4 .r6 .r4 .id, .op2 .mul .r4 .r4 .lr .id, .op2 .sub .r4 .r4 .r2 .id, .op1 (.lsr 3) .r4 .r4,
  .op2 .sub .r4 .r4 .r3 .id, .op2 .mul .r5 .r4 .ip .id, .op2 .sub .r6 .r3 .r4 .id, .op2 .sub .r3 .r2 .r6 .id, .op2 .sub .r3 .r3 .r5 .id,
  .strh .r1 .r0 20 .off, .strh .r3 .r0 148 .off, .strh .r8 .r0 276 .off, .strh .r6 .r0 404 .off, .strh .r9 .r0 532 .off,
  .strh .r5 .r0 660 .off, .strh .r7 .r0 788 .off, .ldrh .r1 .sp 22 .off, .ldrh .r2 .sp 278 .off, .ldrh .r3 .sp 534 .off,
  .ldrh .r4 .sp 790 .off, .ldrh .r5 .fp 22 .off, .ldrh .r6 .fp 278 .off, .ldrh .r7 .fp 534 .off, .op2 .add .r8 .r2 .r3 .id,
  .op1 (.lsr 1) .r8 .r8, .op2 .sub .r8 .r8 .r1 .id, .op2 .sub .r8 .r8 .r7 .id, .op2 .add .r9 .r4 .r5 .id, .op2 .sub .r9 .r9 .r1 (.lsl 1),
  .op2 .sub .r9 .r9 .r7 (.lsl 7), .op1 (.lsr 3) .r9 .r9, .op2 .sub .r9 .r9 .r8 .id, .op2 .mul .r9 .r9 .lr .id, .op2 .sub .r8 .r8 .r9 .id,
  .op2 .sub .r2 .r2 .r3 .id, .op1 (.lsr 1) .r2 .r2, .op2 .sub .r3 .r4 .r5 .id, .op1 (.lsr 2) .r3 .r3, .op2 .sub .r3 .r3 .r2 .id,
  .op2 .mul .r3 .r3 .lr .id, .op2 .add .r4 .r7 .r7 (.lsl 3), .op2 .add .r4 .r4 .r9 .id, .op2 .add .r4 .r4 .r4 (.lsl 3),
  .op2 .add .r4 .r4 .r8 .id, .op2 .add .r4 .r4 .r4 (.lsl 3), .op2 .add .r4 .r4 .r1 .id, .op2 .sub .r4 .r6 .r4 .id,
  .op2 .mul .r4 .r4 .lr .id, .op2 .sub .r4 .r4 .r2 .id, .op1 (.lsr 3) .r4 .r4, .op2 .sub .r4 .r4 .r3 .id, .op2 .mul .r5 .r4 .ip .id,
  .op2 .sub .r6 .r3 .r4 .id, .op2 .sub .r3 .r2 .r6 .id, .op2 .sub .r3 .r3 .r5 .id, .strh .r1 .r0 22 .off, .strh .r3 .r0 150 .off,
  .strh .r8 .r0 278 .off, .strh .r6 .r0 406 .off, .strh .r9 .r0 534 .off, .strh .r5 .r0 662 .off, .strh .r7 .r0 790 .off,
  .ldrh .r1 .sp 24 .off, .ldrh .r2 .sp 280 .off, .ldrh .r3 .sp 536 .off, .ldrh .r4 .sp 792 .off, .ldrh .r5 .fp 24 .off,
  .ldrh .r6 .fp 280 .off, .ldrh .r7 .fp 536 .off, .op2 .add .r8 .r2 .r3 .id, .op1 (.lsr 1) .r8 .r8, .op2 .sub .r8 .r8 .r1 .id,
  .op2 .sub .r8 .r8 .r7 .id, .op2 .add .r9 .r4 .r5 .id, .op2 .sub .r9 .r9 .r1 (.lsl 1), .op2 .sub .r9 .r9 .r7 (.lsl 7),
  .op1 (.lsr 3) .r9 .r9, .op2 .sub .r9 .r9 .r8 .id, .op2 .mul .r9 .r9 .lr .id, .op2 .sub .r8 .r8 .r9 .id, .op2 .sub .r2 .r2 .r3 .id,
  .op1 (.lsr 1) .r2 .r2, .op2 .sub .r3 .r4 .r5 .id, .op1 (.lsr 2) .r3 .r3, .op2 .sub .r3 .r3 .r2 .id, .op2 .mul .r3 .r3 .lr .id,
  .op2 .add .r4 .r7 .r7 (.lsl 3), .op2 .add .r4 .r4 .r9 .id, .op2 .add .r4 .r4 .r4 (.lsl 3), .op2 .add .r4 .r4 .r8 .id,
  .op2 .add .r4 .r4 .r4 (.lsl 3), .op2 .add .r4 .r4 .r1 .id, .op2 .sub .r4 .r6 .r4 .id, .op2 .mul .r4 .r4 .lr .id,
  .op2 .sub .r4 .r4 .r2 .id, .op1 (.lsr 3) .r4 .r4, .op2 .sub .r4 .r4 .r3 .id, .op2 .mul .r5 .r4 .ip .id, .op2 .sub .r6 .r3 .r4 .id,
  .op2 .sub .r3 .r2 .r6 .id, .op2 .sub .r3 .r3 .r5 .id, .strh .r1 .r0 24 .off, .strh .r3 .r0 152 .off, .strh .r8 .r0 280 .off,
  .strh .r6 .r0 408 .off]

/-- mult_toom4_256_16.s:3932-4051 -/
def polymul_asm_30 : List Ins := [
  .strh .r9 .r0 536 .off, .strh .r5 .r0 664 .off, .strh .r7 .r0 792 .off, .ldrh .r1 .sp 26 .off, .ldrh .r2 .sp 282 .off,
  .ldrh .r3 .sp 538 .off, .ldrh .r4 .sp 794 .off, .ldrh .r5 .fp 26 .off, .ldrh .r6 .fp 282 .off, .ldrh .r7 .fp 538 .off,
  .op2 .add .r8 .r2 .r3 .id, .op1 (.lsr 1) .r8 .r8, .op2 .sub .r8 .r8 .r1 .id, .op2 .sub .r8 .r8 .r7 .id, .op2 .add .r9 .r4 .r5 .id,
  .op2 .sub .r9 .r9 .r1 (.lsl 1), .op2 .sub .r9 .r9 .r7 (.lsl 7), .op1 (.lsr 3) .r9 .r9, .op2 .sub .r9 .r9 .r8 .id,
  .op2 .mul .r9 .r9 .lr .id, .op2 .sub .r8 .r8 .r9 .id, .op2 .sub .r2 .r2 .r3 .id, .op1 (.lsr 1) .r2 .r2, .op2 .sub .r3 .r4 .r5 .id,
  .op1 (.lsr 2) .r3 .r3, .op2 .sub .r3 .r3 .r2 .id, .op2 .mul .r3 .r3 .lr .id, .op2 .add .r4 .r7 .r7 (.lsl 3), .op2 .add .r4 .r4 .r9 .id,
  .op2 .add .r4 .r4 .r4 (.lsl 3), .op2 .add .r4 .r4 .r8 .id, .op2 .add .r4 .r4 .r4 (.lsl 3), .op2 .add .r4 .r4 .r1 .id,
  .op2 .sub .r4 .r6 .r4 .id, .op2 .mul .r4 .r4 .lr .id, .op2 .sub .r4 .r4 .r2 .id, .op1 (.lsr 3) .r4 .r4, .op2 .sub .r4 .r4 .r3 .id,
  .op2 .mul .r5 .r4 .ip .id, .op2 .sub .r6 .r3 .r4 .id, .op2 .sub .r3 .r2 .r6 .id, .op2 .sub .r3 .r3 .r5 .id, .strh .r1 .r0 26 .off,
  .strh .r3 .r0 154 .off, .strh .r8 .r0 282 .off, .strh .r6 .r0 410 .off, .strh .r9 .r0 538 .off, .strh .r5 .r0 666 .off,
  .strh .r7 .r0 794 .off, .ldrh .r1 .sp 28 .off, .ldrh .r2 .sp 284 .off, .ldrh .r3 .sp 540 .off, .ldrh .r4 .sp 796 .off,
  .ldrh .r5 .fp 28 .off, .ldrh .r6 .fp 284 .off, .ldrh .r7 .fp 540 .off, .op2 .add .r8 .r2 .r3 .id, .op1 (.lsr 1) .r8 .r8,
  .op2 .sub .r8 .r8 .r1 .id, .op2 .sub .r8 .r8 .r7 .id, .op2 .add .r9 .r4 .r5 .id, .op2 .sub .r9 .r9 .r1 (.lsl 1),
  .op2 .sub .r9 .r9 .r7 (.lsl 7), .op1 (.lsr 3) .r9 .r9, .op2 .sub .r9 .r9 .r8 .id, .op2 .mul .r9 .r9 .lr .id, .op2 .sub .r8 .r8 .r9 .id,
  .op2 .sub .r2 .r2 .r3 .id, .op1 (.lsr 1) .r2 .r2, .op2 .sub .r3 .r4 .r5 .id, .op1 (.lsr 2) .r3 .r3, .op2 .sub .r3 .r3 .r2 .id,
  .op2 .mul .r3 .r3 .lr .id, .op2 .add .r4 .r7 .r7 (.lsl 3), .op2 .add .r4 .r4 .r9 .id, .op2 .add .r4 .r4 .r4 (.lsl 3),
  .op2 .add .r4 .r4 .r8 .id, .op2 .add .r4 .r4 .r4 (.lsl 3), .op2 .add .r4 .r4 .r1 .id, .op2 .sub .r4 .r6 .r4 .id,
  .op2 .mul .r4 .r4 .lr .id, .op2 .sub .r4 .r4 .r2 .id, .op1 (.lsr 3) .r4 .r4, .op2 .sub .r4 .r4 .r3 .id, .op2 .mul .r5 .r4 .ip .id,
  .op2 .sub .r6 .r3 .r4 .id, .op2 .sub .r3 .r2 .r6 .id, .op2 .sub .r3 .r3 .r5 .id, .strh .r1 .r0 28 .off, .strh .r3 .r0 156 .off,
  .strh .r8 .r0 284 .off, .strh .r6 .r0 412 .off, .strh .r9 .r0 540 .off, .strh .r5 .r0 668 .off, .strh .r7 .r0 796 .off,
  .ldrh .r1 .sp 30 .off, .ldrh .r2 .sp 286 .off, .ldrh .r3 .sp 542 .off, .ldrh .r4 .sp 798 .off, .ldrh .r5 .fp 30 .off,
  .ldrh .r6 .fp 286 .off, .ldrh .r7 .fp 542 .off, .op2 .add .r8 .r2 .r3 .id, .op1 (.lsr 1) .r8 .r8, .op2 .sub .r8 .r8 .r1 .id,
  .op2 .sub .r8 .r8 .r7 .id, .op2 .add .r9 .r4 .r5 .id, .op2 .sub .r9 .r9 .r1 (.lsl 1), .op2 .sub .r9 .r9 .r7 (.lsl 7),
  .op1 (.lsr 3) .r9 .r9, .op2 .sub .r9 .r9 .r8 .id, .op2 .mul .r9 .r9 .lr .id, .op2 .sub .r8 .r8 .r9 .id, .op2 .sub .r2 .r2 .r3 .id,
  .op1 (.lsr 1) .r2 .r2, .op2 .sub .r3 .r4 .r5 .id, .op1 (.lsr 2) .r3 .r3, .op2 .sub .r3 .r3 .r2 .id, .op2 .mul .r3 .r3 .lr .id,
  .op2 .add .r4 .r7 .r7 (.lsl 3)]

/-- mult_toom4_256_16.s:4052-4171 -/
def polymul_asm_31 : List Ins := [
  .op2 .add .r4 .r4 .r9 .id, .op2 .add .r4 .r4 .r4 (.lsl 3), .op2 .add .r4 .r4 .r8 .id, .op2 .add .r4 .r4 .r4 (.lsl 3),
  .op2 .add .r4 .r4 .r1 .id, .op2 .sub .r4 .r6 .r4 .id, .op2 .mul .r4 .r4 .lr .id, .op2 .sub .r4 .r4 .r2 .id, .op1 (.lsr 3) .r4 .r4,
  .op2 .sub .r4 .r4 .r3 .id, .op2 .mul .r5 .r4 .ip .id, .op2 .sub .r6 .r3 .r4 .id, .op2 .sub .r3 .r2 .r6 .id, .op2 .sub .r3 .r3 .r5 .id,
  .strh .r1 .r0 30 .off, .strh .r3 .r0 158 .off, .strh .r8 .r0 286 .off, .strh .r6 .r0 414 .off, .strh .r9 .r0 542 .off,
  .strh .r5 .r0 670 .off, .strh .r7 .r0 798 .off, .ldrh .r1 .sp 32 .off, .ldrh .r2 .sp 288 .off, .ldrh .r3 .sp 544 .off,
  .ldrh .r4 .sp 800 .off, .ldrh .r5 .fp 32 .off, .ldrh .r6 .fp 288 .off, .ldrh .r7 .fp 544 .off, .op2 .add .r8 .r2 .r3 .id,
  .op1 (.lsr 1) .r8 .r8, .op2 .sub .r8 .r8 .r1 .id, .op2 .sub .r8 .r8 .r7 .id, .op2 .add .r9 .r4 .r5 .id, .op2 .sub .r9 .r9 .r1 (.lsl 1),
  .op2 .sub .r9 .r9 .r7 (.lsl 7), .op1 (.lsr 3) .r9 .r9, .op2 .sub .r9 .r9 .r8 .id, .op2 .mul .r9 .r9 .lr .id, .op2 .sub .r8 .r8 .r9 .id,
  .op2 .sub .r2 .r2 .r3 .id, .op1 (.lsr 1) .r2 .r2, .op2 .sub .r3 .r4 .r5 .id, .op1 (.lsr 2) .r3 .r3, .op2 .sub .r3 .r3 .r2 .id,
  .op2 .mul .r3 .r3 .lr .id, .op2 .add .r4 .r7 .r7 (.lsl 3), .op2 .add .r4 .r4 .r9 .id, .op2 .add .r4 .r4 .r4 (.lsl 3),
  .op2 .add .r4 .r4 .r8 .id, .op2 .add .r4 .r4 .r4 (.lsl 3), .op2 .add .r4 .r4 .r1 .id, .op2 .sub .r4 .r6 .r4 .id,
  .op2 .mul .r4 .r4 .lr .id, .op2 .sub .r4 .r4 .r2 .id, .op1 (.lsr 3) .r4 .r4, .op2 .sub .r4 .r4 .r3 .id, .op2 .mul .r5 .r4 .ip .id,
  .op2 .sub .r6 .r3 .r4 .id, .op2 .sub .r3 .r2 .r6 .id, .op2 .sub .r3 .r3 .r5 .id, .strh .r1 .r0 32 .off, .strh .r3 .r0 160 .off,
  .strh .r8 .r0 288 .off, .strh .r6 .r0 416 .off, .strh .r9 .r0 544 .off, .strh .r5 .r0 672 .off, .strh .r7 .r0 800 .off,
  .ldrh .r1 .sp 34 .off, .ldrh .r2 .sp 290 .off, .ldrh .r3 .sp 546 .off, .ldrh .r4 .sp 802 .off, .ldrh .r5 .fp 34 .off,
  .ldrh .r6 .fp 290 .off, .ldrh .r7 .fp 546 .off, .op2 .add .r8 .r2 .r3 .id, .op1 (.lsr 1) .r8 .r8, .op2 .sub .r8 .r8 .r1 .id,
  .op2 .sub .r8 .r8 .r7 .id, .op2 .add .r9 .r4 .r5 .id, .op2 .sub .r9 .r9 .r1 (.lsl 1), .op2 .sub .r9 .r9 .r7 (.lsl 7),
  .op1 (.lsr 3) .r9 .r9, .op2 .sub .r9 .r9 .r8 .id, .op2 .mul .r9 .r9 .lr .id, .op2 .sub .r8 .r8 .r9 .id, .op2 .sub .r2 .r2 .r3 .id,
  .op1 (.lsr 1) .r2 .r2, .op2 .sub .r3 .r4 .r5 .id, .op1 (.lsr 2) .r3 .r3, .op2 .sub .r3 .r3 .r2 .id, .op2 .mul .r3 .r3 .lr .id,
  .op2 .add .r4 .r7 .r7 (.lsl 3), .op2 .add .r4 .r4 .r9 .id, .op2 .add .r4 .r4 .r4 (.lsl 3), .op2 .add .r4 .r4 .r8 .id,
  .op2 .add .r4 .r4 .r4 (.lsl 3), .op2 .add .r4 .r4 .r1 .id, .op2 .sub .r4 .r6 .r4 .id, .op2 .mul .r4 .r4 .lr .id,
  .op2 .sub .r4 .r4 .r2 .id, .op1 (.lsr 3) .r4 .r4, .op2 .sub .r4 .r4 .r3 .id, .op2 .mul .r5 .r4 .ip .id, .op2 .sub .r6 .r3 .r4 .id,
  .op2 .sub .r3 .r2 .r6 .id, .op2 .sub .r3 .r3 .r5 .id, .strh .r1 .r0 34 .off, .strh .r3 .r0 162 .off, .strh .r8 .r0 290 .off,
  .strh .r6 .r0 418 .off, .strh .r9 .r0 546 .off, .strh .r5 .r0 674 .off, .strh .r7 .r0 802 .off, .ldrh .r1 .sp 36 .off,
  .ldrh .r2 .sp 292 .off, .ldrh .r3 .sp 548 .off, .ldrh .r4 .sp 804 .off, .ldrh .r5 .fp 36 .off, .ldrh .r6 .fp 292 .off,
  .ldrh .r7 .fp 548 .off]

/-- mult_toom4_256_16.s:4172-4291 -/
def polymul_asm_32 : List Ins := [
  .op2 .add .r8 .r2 .r3 .id, .op1 (.lsr 1) .r8 .r8, .op2 .sub .r8 .r8 .r1 .id, .op2 .sub .r8 .r8 .r7 .id, .op2 .add .r9 .r4 .r5 .id,
  .op2 .sub .r9 .r9 .r1 (.lsl 1), .op2 .sub .r9 .r9 .r7 (.lsl 7), .op1 (.lsr 3) .r9 .r9, .op2 .sub .r9 .r9 .r8 .id,
  .op2 .mul .r9 .r9 .lr .id, .op2 .sub .r8 .r8 .r9 .id, .op2 .sub .r2 .r2 .r3 .id, .op1 (.lsr 1) .r2 .r2, .op2 .sub .r3 .r4 .r5 .id,
  .op1 (.lsr 2) .r3 .r3, .op2 .sub .r3 .r3 .r2 .id, .op2 .mul .r3 .r3 .lr .id, .op2 .add .r4 .r7 .r7 (.lsl 3), .op2 .add .r4 .r4 .r9 .id,
  .op2 .add .r4 .r4 .r4 (.lsl 3), .op2 .add .r4 .r4 .r8 .id, .op2 .add .r4 .r4 .r4 (.lsl 3), .op2 .add .r4 .r4 .r1 .id,
  .op2 .sub .r4 .r6 .r4 .id, .op2 .mul .r4 .r4 .lr .id, .op2 .sub .r4 .r4 .r2 .id, .op1 (.lsr 3) .r4 .r4, .op2 .sub .r4 .r4 .r3 .id,
  .op2 .mul .r5 .r4 .ip .id, .op2 .sub .r6 .r3 .r4 .id, .op2 .sub .r3 .r2 .r6 .id, .op2 .sub .r3 .r3 .r5 .id, .strh .r1 .r0 36 .off,
  .strh .r3 .r0 164 .off, .strh .r8 .r0 292 .off, .strh .r6 .r0 420 .off, .strh .r9 .r0 548 .off, .strh .r5 .r0 676 .off,
  .strh .r7 .r0 804 .off, .ldrh .r1 .sp 38 .off, .ldrh .r2 .sp 294 .off, .ldrh .r3 .sp 550 .off, .ldrh .r4 .sp 806 .off,
  .ldrh .r5 .fp 38 .off, .ldrh .r6 .fp 294 .off, .ldrh .r7 .fp 550 .off, .op2 .add .r8 .r2 .r3 .id, .op1 (.lsr 1) .r8 .r8,
  .op2 .sub .r8 .r8 .r1 .id, .op2 .sub .r8 .r8 .r7 .id, .op2 .add .r9 .r4 .r5 .id, .op2 .sub .r9 .r9 .r1 (.lsl 1),
  .op2 .sub .r9 .r9 .r7 (.lsl 7), .op1 (.lsr 3) .r9 .r9, .op2 .sub .r9 .r9 .r8 .id, .op2 .mul .r9 .r9 .lr .id, .op2 .sub .r8 .r8 .r9 .id,
  .op2 .sub .r2 .r2 .r3 .id, .op1 (.lsr 1) .r2 .r2, .op2 .sub .r3 .r4 .r5 .id, .op1 (.lsr 2) .r3 .r3, .op2 .sub .r3 .r3 .r2 .id,
  .op2 .mul .r3 .r3 .lr .id, .op2 .add .r4 .r7 .r7 (.lsl 3), .op2 .add .r4 .r4 .r9 .id, .op2 .add .r4 .r4 .r4 (.lsl 3),
  .op2 .add .r4 .r4 .r8 .id, .op2 .add .r4 .r4 .r4 (.lsl 3), .op2 .add .r4 .r4 .r1 .id, .op2 .sub .r4 .r6 .r4 .id,
  .op2 .mul .r4 .r4 .lr .id, .op2 .sub .r4 .r4 .r2 .id, .op1 (.lsr 3) .r4 .r4, .op2 .sub .r4 .r4 .r3 .id, .op2 .mul .r5 .r4 .ip .id,
  .op2 .sub .r6 .r3 .r4 .id, .op2 .sub .r3 .r2 .r6 .id, .op2 .sub .r3 .r3 .r5 .id, .strh .r1 .r0 38 .off, .strh .r3 .r0 166 .off,
  .strh .r8 .r0 294 .off, .strh .r6 .r0 422 .off, .strh .r9 .r0 550 .off, .strh .r5 .r0 678 .off, .strh .r7 .r0 806 .off,
  .ldrh .r1 .sp 40 .off, .ldrh .r2 .sp 296 .off, .ldrh .r3 .sp 552 .off, .ldrh .r4 .sp 808 .off, .ldrh .r5 .fp 40 .off,
  .ldrh .r6 .fp 296 .off, .ldrh .r7 .fp 552 .off, .op2 .add .r8 .r2 .r3 .id, .op1 (.lsr 1) .r8 .r8, .op2 .sub .r8 .r8 .r1 .id,
  .op2 .sub .r8 .r8 .r7 .id, .op2 .add .r9 .r4 .r5 .id, .op2 .sub .r9 .r9 .r1 (.lsl 1), .op2 .sub .r9 .r9 .r7 (.lsl 7),
  .op1 (.lsr 3) .r9 .r9, .op2 .sub .r9 .r9 .r8 .id, .op2 .mul .r9 .r9 .lr .id, .op2 .sub .r8 .r8 .r9 .id, .op2 .sub .r2 .r2 .r3 .id,
  .op1 (.lsr 1) .r2 .r2, .op2 .sub .r3 .r4 .r5 .id, .op1 (.lsr 2) .r3 .r3, .op2 .sub .r3 .r3 .r2 .id, .op2 .mul .r3 .r3 .lr .id,
  .op2 .add .r4 .r7 .r7 (.lsl 3), .op2 .add .r4 .r4 .r9 .id, .op2 .add .r4 .r4 .r4 (.lsl 3), .op2 .add .r4 .r4 .r8 .id,
  .op2 .add .r4 .r4 .r4 (.lsl 3), .op2 .add .r4 .r4 .r1 .id, .op2 .sub .r4 .r6 .r4 .id, .op2 .mul .r4 .r4 .lr .id,
  .op2 .sub .r4 .r4 .r2 .id, .op1 (.lsr 3) .r4 .r4, .op2 .sub .r4 .r4 .r3 .id]

/-- mult_toom4_256_16.s:4292-4411 -/
def polymul_asm_33 : List Ins := [
  .op2 .mul .r5 .r4 .ip .id, .op2 .sub .r6 .r3 .r4 .id, .op2 .sub .r3 .r2 .r6 .id, .op2 .sub .r3 .r3 .r5 .id, .strh .r1 .r0 40 .off,
  .strh .r3 .r0 168 .off, .strh .r8 .r0 296 .off, .strh .r6 .r0 424 .off, .strh .r9 .r0 552 .off, .strh .r5 .r0 680 .off,
  .strh .r7 .r0 808 .off, .ldrh .r1 .sp 42 .off, .ldrh .r2 .sp 298 .off, .ldrh .r3 .sp 554 .off, .ldrh .r4 .sp 810 .off,
  .ldrh .r5 .fp 42 .off, .ldrh .r6 .fp 298 .off, .ldrh .r7 .fp 554 .off, .op2 .add .r8 .r2 .r3 .id, .op1 (.lsr 1) .r8 .r8,
  .op2 .sub .r8 .r8 .r1 .id, .op2 .sub .r8 .r8 .r7 .id, .op2 .add .r9 .r4 .r5 .id, .op2 .sub .r9 .r9 .r1 (.lsl 1),
  .op2 .sub .r9 .r9 .r7 (.lsl 7), .op1 (.lsr 3) .r9 .r9, .op2 .sub .r9 .r9 .r8 .id, .op2 .mul .r9 .r9 .lr .id, .op2 .sub .r8 .r8 .r9 .id,
  .op2 .sub .r2 .r2 .r3 .id, .op1 (.lsr 1) .r2 .r2, .op2 .sub .r3 .r4 .r5 .id, .op1 (.lsr 2) .r3 .r3, .op2 .sub .r3 .r3 .r2 .id,
  .op2 .mul .r3 .r3 .lr .id, .op2 .add .r4 .r7 .r7 (.lsl 3), .op2 .add .r4 .r4 .r9 .id, .op2 .add .r4 .r4 .r4 (.lsl 3),
  .op2 .add .r4 .r4 .r8 .id, .op2 .add .r4 .r4 .r4 (.lsl 3), .op2 .add .r4 .r4 .r1 .id, .op2 .sub .r4 .r6 .r4 .id,
  .op2 .mul .r4 .r4 .lr .id, .op2 .sub .r4 .r4 .r2 .id, .op1 (.lsr 3) .r4 .r4, .op2 .sub .r4 .r4 .r3 .id, .op2 .mul .r5 .r4 .ip .id,
  .op2 .sub .r6 .r3 .r4 .id, .op2 .sub .r3 .r2 .r6 .id, .op2 .sub .r3 .r3 .r5 .id, .strh .r1 .r0 42 .off, .strh .r3 .r0 170 .off,
  .strh .r8 .r0 298 .off, .strh .r6 .r0 426 .off, .strh .r9 .r0 554 .off, .strh .r5 .r0 682 .off, .strh .r7 .r0 810 .off,
  .ldrh .r1 .sp 44 .off, .ldrh .r2 .sp 300 .off, .ldrh .r3 .sp 556 .off, .ldrh .r4 .sp 812 .off, .ldrh .r5 .fp 44 .off,
  .ldrh .r6 .fp 300 .off, .ldrh .r7 .fp 556 .off, .op2 .add .r8 .r2 .r3 .id, .op1 (.lsr 1) .r8 .r8, .op2 .sub .r8 .r8 .r1 .id,
  .op2 .sub .r8 .r8 .r7 .id, .op2 .add .r9 .r4 .r5 .id, .op2 .sub .r9 .r9 .r1 (.lsl 1), .op2 .sub .r9 .r9 .r7 (.lsl 7),
  .op1 (.lsr 3) .r9 .r9, .op2 .sub .r9 .r9 .r8 .id, .op2 .mul .r9 .r9 .lr .id, .op2 .sub .r8 .r8 .r9 .id, .op2 .sub .r2 .r2 .r3 .id,
  .op1 (.lsr 1) .r2 .r2, .op2 .sub .r3 .r4 .r5 .id, .op1 (.lsr 2) .r3 .r3, .op2 .sub .r3 .r3 .r2 .id, .op2 .mul .r3 .r3 .lr .id,
  .op2 .add .r4 .r7 .r7 (.lsl 3), .op2 .add .r4 .r4 .r9 .id, .op2 .add .r4 .r4 .r4 (.lsl 3), .op2 .add .r4 .r4 .r8 .id,
  .op2 .add .r4 .r4 .r4 (.lsl 3), .op2 .add .r4 .r4 .r1 .id, .op2 .sub .r4 .r6 .r4 .id, .op2 .mul .r4 .r4 .lr .id,
  .op2 .sub .r4 .r4 .r2 .id, .op1 (.lsr 3) .r4 .r4, .op2 .sub .r4 .r4 .r3 .id, .op2 .mul .r5 .r4 .ip .id, .op2 .sub .r6 .r3 .r4 .id,
  .op2 .sub .r3 .r2 .r6 .id, .op2 .sub .r3 .r3 .r5 .id, .strh .r1 .r0 44 .off, .strh .r3 .r0 172 .off, .strh .r8 .r0 300 .off,
  .strh .r6 .r0 428 .off, .strh .r9 .r0 556 .off, .strh .r5 .r0 684 .off, .strh .r7 .r0 812 .off, .ldrh .r1 .sp 46 .off,
  .ldrh .r2 .sp 302 .off, .ldrh .r3 .sp 558 .off, .ldrh .r4 .sp 814 .off, .ldrh .r5 .fp 46 .off, .ldrh .r6 .fp 302 .off,
  .ldrh .r7 .fp 558 .off, .op2 .add .r8 .r2 .r3 .id, .op1 (.lsr 1) .r8 .r8, .op2 .sub .r8 .r8 .r1 .id, .op2 .sub .r8 .r8 .r7 .id,
  .op2 .add .r9 .r4 .r5 .id, .op2 .sub .r9 .r9 .r1 (.lsl 1), .op2 .sub .r9 .r9 .r7 (.lsl 7), .op1 (.lsr 3) .r9 .r9,
  .op2 .sub .r9 .r9 .r8 .id, .op2 .mul .r9 .r9 .lr .id]

/-- mult_toom4_256_16.s:4412-4531 -/
def polymul_asm_34 : List Ins := [
  .op2 .sub .r8 .r8 .r9 .id, .op2 .sub .r2 .r2 .r3 .id, .op1 (.lsr 1) .r2 .r2, .op2 .sub .r3 .r4 .r5 .id, .op1 (.lsr 2) .r3 .r3,
  .op2 .sub .r3 .r3 .r2 .id, .op2 .mul .r3 .r3 .lr .id, .op2 .add .r4 .r7 .r7 (.lsl 3), .op2 .add .r4 .r4 .r9 .id,
  .op2 .add .r4 .r4 .r4 (.lsl 3), .op2 .add .r4 .r4 .r8 .id, .op2 .add .r4 .r4 .r4 (.lsl 3), .op2 .add .r4 .r4 .r1 .id,
  .op2 .sub .r4 .r6 .r4 .id, .op2 .mul .r4 .r4 .lr .id, .op2 .sub .r4 .r4 .r2 .id, .op1 (.lsr 3) .r4 .r4, .op2 .sub .r4 .r4 .r3 .id,
  .op2 .mul .r5 .r4 .ip .id, .op2 .sub .r6 .r3 .r4 .id, .op2 .sub .r3 .r2 .r6 .id, .op2 .sub .r3 .r3 .r5 .id, .strh .r1 .r0 46 .off,
  .strh .r3 .r0 174 .off, .strh .r8 .r0 302 .off, .strh .r6 .r0 430 .off, .strh .r9 .r0 558 .off, .strh .r5 .r0 686 .off,
  .strh .r7 .r0 814 .off, .ldrh .r1 .sp 48 .off, .ldrh .r2 .sp 304 .off, .ldrh .r3 .sp 560 .off, .ldrh .r4 .sp 816 .off,
  .ldrh .r5 .fp 48 .off, .ldrh .r6 .fp 304 .off, .ldrh .r7 .fp 560 .off, .op2 .add .r8 .r2 .r3 .id, .op1 (.lsr 1) .r8 .r8,
  .op2 .sub .r8 .r8 .r1 .id, .op2 .sub .r8 .r8 .r7 .id, .op2 .add .r9 .r4 .r5 .id, .op2 .sub .r9 .r9 .r1 (.lsl 1),
  .op2 .sub .r9 .r9 .r7 (.lsl 7), .op1 (.lsr 3) .r9 .r9, .op2 .sub .r9 .r9 .r8 .id, .op2 .mul .r9 .r9 .lr .id, .op2 .sub .r8 .r8 .r9 .id,
  .op2 .sub .r2 .r2 .r3 .id, .op1 (.lsr 1) .r2 .r2, .op2 .sub .r3 .r4 .r5 .id, .op1 (.lsr 2) .r3 .r3, .op2 .sub .r3 .r3 .r2 .id,
  .op2 .mul .r3 .r3 .lr .id, .op2 .add .r4 .r7 .r7 (.lsl 3), .op2 .add .r4 .r4 .r9 .id, .op2 .add .r4 .r4 .r4 (.lsl 3),
  .op2 .add .r4 .r4 .r8 .id, .op2 .add .r4 .r4 .r4 (.lsl 3), .op2 .add .r4 .r4 .r1 .id, .op2 .sub .r4 .r6 .r4 .id,
  .op2 .mul .r4 .r4 .lr .id, .op2 .sub .r4 .r4 .r2 .id, .op1 (.lsr 3) .r4 .r4, .op2 .sub .r4 .r4 .r3 .id, .op2 .mul .r5 .r4 .ip .id,
  .op2 .sub .r6 .r3 .r4 .id, .op2 .sub .r3 .r2 .r6 .id, .op2 .sub .r3 .r3 .r5 .id, .strh .r1 .r0 48 .off, .strh .r3 .r0 176 .off,
  .strh .r8 .r0 304 .off, .strh .r6 .r0 432 .off, .strh .r9 .r0 560 .off, .strh .r5 .r0 688 .off, .strh .r7 .r0 816 .off,
  .ldrh .r1 .sp 50 .off, .ldrh .r2 .sp 306 .off, .ldrh .r3 .sp 562 .off, .ldrh .r4 .sp 818 .off, .ldrh .r5 .fp 50 .off,
  .ldrh .r6 .fp 306 .off, .ldrh .r7 .fp 562 .off, .op2 .add .r8 .r2 .r3 .id, .op1 (.lsr 1) .r8 .r8, .op2 .sub .r8 .r8 .r1 .id,
  .op2 .sub .r8 .r8 .r7 .id, .op2 .add .r9 .r4 .r5 .id, .op2 .sub .r9 .r9 .r1 (.lsl 1), .op2 .sub .r9 .r9 .r7 (.lsl 7),
  .op1 (.lsr 3) .r9 .r9, .op2 .sub .r9 .r9 .r8 .id, .op2 .mul .r9 .r9 .lr .id, .op2 .sub .r8 .r8 .r9 .id, .op2 .sub .r2 .r2 .r3 .id,
  .op1 (.lsr 1) .r2 .r2, .op2 .sub .r3 .r4 .r5 .id, .op1 (.lsr 2) .r3 .r3, .op2 .sub .r3 .r3 .r2 .id, .op2 .mul .r3 .r3 .lr .id,
  .op2 .add .r4 .r7 .r7 (.lsl 3), .op2 .add .r4 .r4 .r9 .id, .op2 .add .r4 .r4 .r4 (.lsl 3), .op2 .add .r4 .r4 .r8 .id,
  .op2 .add .r4 .r4 .r4 (.lsl 3), .op2 .add .r4 .r4 .r1 .id, .op2 .sub .r4 .r6 .r4 .id, .op2 .mul .r4 .r4 .lr .id,
  .op2 .sub .r4 .r4 .r2 .id, .op1 (.lsr 3) .r4 .r4, .op2 .sub .r4 .r4 .r3 .id, .op2 .mul .r5 .r4 .ip .id, .op2 .sub .r6 .r3 .r4 .id,
  .op2 .sub .r3 .r2 .r6 .id, .op2 .sub .r3 .r3 .r5 .id, .strh .r1 .r0 50 .off, .strh .r3 .r0 178 .off, .strh .r8 .r0 306 .off,
  .strh .r6 .r0 434 .off, .strh .r9 .r0 562 .off, .strh .r5 .r0 690 .off]

/-- mult_toom4_256_16.s:4532-4651 -/
def polymul_asm_35 : List Ins := [
  .strh .r7 .r0 818 .off, .ldrh .r1 .sp 52 .off, .ldrh .r2 .sp 308 .off, .ldrh .r3 .sp 564 .off, .ldrh .r4 .sp 820 .off,
  .ldrh .r5 .fp 52 .off, .ldrh .r6 .fp 308 .off, .ldrh .r7 .fp 564 .off, .op2 .add .r8 .r2 .r3 .id, .op1 (.lsr 1) .r8 .r8,
  .op2 .sub .r8 .r8 .r1 .id, .op2 .sub .r8 .r8 .r7 .id, .op2 .add .r9 .r4 .r5 .id, .op2 .sub .r9 .r9 .r1 (.lsl 1),
  .op2 .sub .r9 .r9 .r7 (.lsl 7), .op1 (.lsr 3) .r9 .r9, .op2 .sub .r9 .r9 .r8 .id, .op2 .mul .r9 .r9 .lr .id, .op2 .sub .r8 .r8 .r9 .id,
  .op2 .sub .r2 .r2 .r3 .id, .op1 (.lsr 1) .r2 .r2, .op2 .sub .r3 .r4 .r5 .id, .op1 (.lsr 2) .r3 .r3, .op2 .sub .r3 .r3 .r2 .id,
  .op2 .mul .r3 .r3 .lr .id, .op2 .add .r4 .r7 .r7 (.lsl 3), .op2 .add .r4 .r4 .r9 .id, .op2 .add .r4 .r4 .r4 (.lsl 3),
  .op2 .add .r4 .r4 .r8 .id, .op2 .add .r4 .r4 .r4 (.lsl 3), .op2 .add .r4 .r4 .r1 .id, .op2 .sub .r4 .r6 .r4 .id,
  .op2 .mul .r4 .r4 .lr .id, .op2 .sub .r4 .r4 .r2 .id, .op1 (.lsr 3) .r4 .r4, .op2 .sub .r4 .r4 .r3 .id, .op2 .mul .r5 .r4 .ip .id,
  .op2 .sub .r6 .r3 .r4 .id, .op2 .sub .r3 .r2 .r6 .id, .op2 .sub .r3 .r3 .r5 .id, .strh .r1 .r0 52 .off, .strh .r3 .r0 180 .off,
  .strh .r8 .r0 308 .off, .strh .r6 .r0 436 .off, .strh .r9 .r0 564 .off, .strh .r5 .r0 692 .off, .strh .r7 .r0 820 .off,
  .ldrh .r1 .sp 54 .off, .ldrh .r2 .sp 310 .off, .ldrh .r3 .sp 566 .off, .ldrh .r4 .sp 822 .off, .ldrh .r5 .fp 54 .off,
  .ldrh .r6 .fp 310 .off, .ldrh .r7 .fp 566 .off, .op2 .add .r8 .r2 .r3 .id, .op1 (.lsr 1) .r8 .r8, .op2 .sub .r8 .r8 .r1 .id,
  .op2 .sub .r8 .r8 .r7 .id, .op2 .add .r9 .r4 .r5 .id, .op2 .sub .r9 .r9 .r1 (.lsl 1), .op2 .sub .r9 .r9 .r7 (.lsl 7),
  .op1 (.lsr 3) .r9 .r9, .op2 .sub .r9 .r9 .r8 .id, .op2 .mul .r9 .r9 .lr .id, .op2 .sub .r8 .r8 .r9 .id, .op2 .sub .r2 .r2 .r3 .id,
  .op1 (.lsr 1) .r2 .r2, .op2 .sub .r3 .r4 .r5 .id, .op1 (.lsr 2) .r3 .r3, .op2 .sub .r3 .r3 .r2 .id, .op2 .mul .r3 .r3 .lr .id,
  .op2 .add .r4 .r7 .r7 (.lsl 3), .op2 .add .r4 .r4 .r9 .id, .op2 .add .r4 .r4 .r4 (.lsl 3), .op2 .add .r4 .r4 .r8 .id,
  .op2 .add .r4 .r4 .r4 (.lsl 3), .op2 .add .r4 .r4 .r1 .id, .op2 .sub .r4 .r6 .r4 .id, .op2 .mul .r4 .r4 .lr .id,
  .op2 .sub .r4 .r4 .r2 .id, .op1 (.lsr 3) .r4 .r4, .op2 .sub .r4 .r4 .r3 .id, .op2 .mul .r5 .r4 .ip .id, .op2 .sub .r6 .r3 .r4 .id,
  .op2 .sub .r3 .r2 .r6 .id, .op2 .sub .r3 .r3 .r5 .id, .strh .r1 .r0 54 .off, .strh .r3 .r0 182 .off, .strh .r8 .r0 310 .off,
  .strh .r6 .r0 438 .off, .strh .r9 .r0 566 .off, .strh .r5 .r0 694 .off, .strh .r7 .r0 822 .off, .ldrh .r1 .sp 56 .off,
  .ldrh .r2 .sp 312 .off, .ldrh .r3 .sp 568 .off, .ldrh .r4 .sp 824 .off, .ldrh .r5 .fp 56 .off, .ldrh .r6 .fp 312 .off,
  .ldrh .r7 .fp 568 .off, .op2 .add .r8 .r2 .r3 .id, .op1 (.lsr 1) .r8 .r8, .op2 .sub .r8 .r8 .r1 .id, .op2 .sub .r8 .r8 .r7 .id,
  .op2 .add .r9 .r4 .r5 .id, .op2 .sub .r9 .r9 .r1 (.lsl 1), .op2 .sub .r9 .r9 .r7 (.lsl 7), .op1 (.lsr 3) .r9 .r9,
  .op2 .sub .r9 .r9 .r8 .id, .op2 .mul .r9 .r9 .lr .id, .op2 .sub .r8 .r8 .r9 .id, .op2 .sub .r2 .r2 .r3 .id, .op1 (.lsr 1) .r2 .r2,
  .op2 .sub .r3 .r4 .r5 .id, .op1 (.lsr 2) .r3 .r3, .op2 .sub .r3 .r3 .r2 .id, .op2 .mul .r3 .r3 .lr .id, .op2 .add .r4 .r7 .r7 (.lsl 3),
  .op2 .add .r4 .r4 .r9 .id, .op2 .add .r4 .r4 .r4 (.lsl 3)]

/-- mult_toom4_256_16.s:4652-4771 -/
def polymul_asm_36 : List Ins := [
  .op2 .add .r4 .r4 .r8 .id, .op2 .add .r4 .r4 .r4 (.lsl 3), .op2 .add .r4 .r4 .r1 .id, .op2 .sub .r4 .r6 .r4 .id,
  .op2 .mul .r4 .r4 .lr .id, .op2 .sub .r4 .r4 .r2 .id, .op1 (.lsr 3) .r4 .r4, .op2 .sub .r4 .r4 .r3 .id, .op2 .mul .r5 .r4 .ip .id,
  .op2 .sub .r6 .r3 .r4 .id, .op2 .sub .r3 .r2 .r6 .id, .op2 .sub .r3 .r3 .r5 .id, .strh .r1 .r0 56 .off, .strh .r3 .r0 184 .off,
  .strh .r8 .r0 312 .off, .strh .r6 .r0 440 .off, .strh .r9 .r0 568 .off, .strh .r5 .r0 696 .off, .strh .r7 .r0 824 .off,
  .ldrh .r1 .sp 58 .off, .ldrh .r2 .sp 314 .off, .ldrh .r3 .sp 570 .off, .ldrh .r4 .sp 826 .off, .ldrh .r5 .fp 58 .off,
  .ldrh .r6 .fp 314 .off, .ldrh .r7 .fp 570 .off, .op2 .add .r8 .r2 .r3 .id, .op1 (.lsr 1) .r8 .r8, .op2 .sub .r8 .r8 .r1 .id,
  .op2 .sub .r8 .r8 .r7 .id, .op2 .add .r9 .r4 .r5 .id, .op2 .sub .r9 .r9 .r1 (.lsl 1), .op2 .sub .r9 .r9 .r7 (.lsl 7),
  .op1 (.lsr 3) .r9 .r9, .op2 .sub .r9 .r9 .r8 .id, .op2 .mul .r9 .r9 .lr .id, .op2 .sub .r8 .r8 .r9 .id, .op2 .sub .r2 .r2 .r3 .id,
  .op1 (.lsr 1) .r2 .r2, .op2 .sub .r3 .r4 .r5 .id, .op1 (.lsr 2) .r3 .r3, .op2 .sub .r3 .r3 .r2 .id, .op2 .mul .r3 .r3 .lr .id,
  .op2 .add .r4 .r7 .r7 (.lsl 3), .op2 .add .r4 .r4 .r9 .id, .op2 .add .r4 .r4 .r4 (.lsl 3), .op2 .add .r4 .r4 .r8 .id,
  .op2 .add .r4 .r4 .r4 (.lsl 3), .op2 .add .r4 .r4 .r1 .id, .op2 .sub .r4 .r6 .r4 .id, .op2 .mul .r4 .r4 .lr .id,
  .op2 .sub .r4 .r4 .r2 .id, .op1 (.lsr 3) .r4 .r4, .op2 .sub .r4 .r4 .r3 .id, .op2 .mul .r5 .r4 .ip .id, .op2 .sub .r6 .r3 .r4 .id,
  .op2 .sub .r3 .r2 .r6 .id, .op2 .sub .r3 .r3 .r5 .id, .strh .r1 .r0 58 .off, .strh .r3 .r0 186 .off, .strh .r8 .r0 314 .off,
  .strh .r6 .r0 442 .off, .strh .r9 .r0 570 .off, .strh .r5 .r0 698 .off, .strh .r7 .r0 826 .off, .ldrh .r1 .sp 60 .off,
  .ldrh .r2 .sp 316 .off, .ldrh .r3 .sp 572 .off, .ldrh .r4 .sp 828 .off, .ldrh .r5 .fp 60 .off, .ldrh .r6 .fp 316 .off,
  .ldrh .r7 .fp 572 .off, .op2 .add .r8 .r2 .r3 .id, .op1 (.lsr 1) .r8 .r8, .op2 .sub .r8 .r8 .r1 .id, .op2 .sub .r8 .r8 .r7 .id,
  .op2 .add .r9 .r4 .r5 .id, .op2 .sub .r9 .r9 .r1 (.lsl 1), .op2 .sub .r9 .r9 .r7 (.lsl 7), .op1 (.lsr 3) .r9 .r9,
  .op2 .sub .r9 .r9 .r8 .id, .op2 .mul .r9 .r9 .lr .id, .op2 .sub .r8 .r8 .r9 .id, .op2 .sub .r2 .r2 .r3 .id, .op1 (.lsr 1) .r2 .r2,
  .op2 .sub .r3 .r4 .r5 .id, .op1 (.lsr 2) .r3 .r3, .op2 .sub .r3 .r3 .r2 .id, .op2 .mul .r3 .r3 .lr .id, .op2 .add .r4 .r7 .r7 (.lsl 3),
  .op2 .add .r4 .r4 .r9 .id, .op2 .add .r4 .r4 .r4 (.lsl 3), .op2 .add .r4 .r4 .r8 .id, .op2 .add .r4 .r4 .r4 (.lsl 3),
  .op2 .add .r4 .r4 .r1 .id, .op2 .sub .r4 .r6 .r4 .id, .op2 .mul .r4 .r4 .lr .id, .op2 .sub .r4 .r4 .r2 .id, .op1 (.lsr 3) .r4 .r4,
  .op2 .sub .r4 .r4 .r3 .id, .op2 .mul .r5 .r4 .ip .id, .op2 .sub .r6 .r3 .r4 .id, .op2 .sub .r3 .r2 .r6 .id, .op2 .sub .r3 .r3 .r5 .id,
  .strh .r1 .r0 60 .off, .strh .r3 .r0 188 .off, .strh .r8 .r0 316 .off, .strh .r6 .r0 444 .off, .strh .r9 .r0 572 .off,
  .strh .r5 .r0 700 .off, .strh .r7 .r0 828 .off, .ldrh .r1 .sp 62 .off, .ldrh .r2 .sp 318 .off, .ldrh .r3 .sp 574 .off,
  .ldrh .r4 .sp 830 .off, .ldrh .r5 .fp 62 .off, .ldrh .r6 .fp 318 .off, .ldrh .r7 .fp 574 .off, .op2 .add .r8 .r2 .r3 .id,
  .op1 (.lsr 1) .r8 .r8]

/-- mult_toom4_256_16.s:4772-4891 -/
def polymul_asm_37 : List Ins := [
  .op2 .sub .r8 .r8 .r1 .id, .op2 .sub .r8 .r8 .r7 .id, .op2 .add .r9 .r4 .r5 .id, .op2 .sub .r9 .r9 .r1 (.lsl 1),
  .op2 .sub .r9 .r9 .r7 (.lsl 7), .op1 (.lsr 3) .r9 .r9, .op2 .sub .r9 .r9 .r8 .id, .op2 .mul .r9 .r9 .lr .id, .op2 .sub .r8 .r8 .r9 .id,
  .op2 .sub .r2 .r2 .r3 .id, .op1 (.lsr 1) .r2 .r2, .op2 .sub .r3 .r4 .r5 .id, .op1 (.lsr 2) .r3 .r3, .op2 .sub .r3 .r3 .r2 .id,
  .op2 .mul .r3 .r3 .lr .id, .op2 .add .r4 .r7 .r7 (.lsl 3), .op2 .add .r4 .r4 .r9 .id, .op2 .add .r4 .r4 .r4 (.lsl 3),
  .op2 .add .r4 .r4 .r8 .id, .op2 .add .r4 .r4 .r4 (.lsl 3), .op2 .add .r4 .r4 .r1 .id, .op2 .sub .r4 .r6 .r4 .id,
  .op2 .mul .r4 .r4 .lr .id, .op2 .sub .r4 .r4 .r2 .id, .op1 (.lsr 3) .r4 .r4, .op2 .sub .r4 .r4 .r3 .id, .op2 .mul .r5 .r4 .ip .id,
  .op2 .sub .r6 .r3 .r4 .id, .op2 .sub .r3 .r2 .r6 .id, .op2 .sub .r3 .r3 .r5 .id, .strh .r1 .r0 62 .off, .strh .r3 .r0 190 .off,
  .strh .r8 .r0 318 .off, .strh .r6 .r0 446 .off, .strh .r9 .r0 574 .off, .strh .r5 .r0 702 .off, .strh .r7 .r0 830 .off,
  .ldrh .r1 .sp 64 .off, .ldrh .r2 .sp 320 .off, .ldrh .r3 .sp 576 .off, .ldrh .r4 .sp 832 .off, .ldrh .r5 .fp 64 .off,
  .ldrh .r6 .fp 320 .off, .ldrh .r7 .fp 576 .off, .op2 .add .r8 .r2 .r3 .id, .op1 (.lsr 1) .r8 .r8, .op2 .sub .r8 .r8 .r1 .id,
  .op2 .sub .r8 .r8 .r7 .id, .op2 .add .r9 .r4 .r5 .id, .op2 .sub .r9 .r9 .r1 (.lsl 1), .op2 .sub .r9 .r9 .r7 (.lsl 7),
  .op1 (.lsr 3) .r9 .r9, .op2 .sub .r9 .r9 .r8 .id, .op2 .mul .r9 .r9 .lr .id, .op2 .sub .r8 .r8 .r9 .id, .op2 .sub .r2 .r2 .r3 .id,
  .op1 (.lsr 1) .r2 .r2, .op2 .sub .r3 .r4 .r5 .id, .op1 (.lsr 2) .r3 .r3, .op2 .sub .r3 .r3 .r2 .id, .op2 .mul .r3 .r3 .lr .id,
  .op2 .add .r4 .r7 .r7 (.lsl 3), .op2 .add .r4 .r4 .r9 .id, .op2 .add .r4 .r4 .r4 (.lsl 3), .op2 .add .r4 .r4 .r8 .id,
  .op2 .add .r4 .r4 .r4 (.lsl 3), .op2 .add .r4 .r4 .r1 .id, .op2 .sub .r4 .r6 .r4 .id, .op2 .mul .r4 .r4 .lr .id,
  .op2 .sub .r4 .r4 .r2 .id, .op1 (.lsr 3) .r4 .r4, .op2 .sub .r4 .r4 .r3 .id, .op2 .mul .r5 .r4 .ip .id, .op2 .sub .r6 .r3 .r4 .id,
  .op2 .sub .r3 .r2 .r6 .id, .op2 .sub .r3 .r3 .r5 .id, .strh .r1 .r0 64 .off, .strh .r3 .r0 192 .off, .strh .r8 .r0 320 .off,
  .strh .r6 .r0 448 .off, .strh .r9 .r0 576 .off, .strh .r5 .r0 704 .off, .strh .r7 .r0 832 .off, .ldrh .r1 .sp 66 .off,
  .ldrh .r2 .sp 322 .off, .ldrh .r3 .sp 578 .off, .ldrh .r4 .sp 834 .off, .ldrh .r5 .fp 66 .off, .ldrh .r6 .fp 322 .off,
  .ldrh .r7 .fp 578 .off, .op2 .add .r8 .r2 .r3 .id, .op1 (.lsr 1) .r8 .r8, .op2 .sub .r8 .r8 .r1 .id, .op2 .sub .r8 .r8 .r7 .id,
  .op2 .add .r9 .r4 .r5 .id, .op2 .sub .r9 .r9 .r1 (.lsl 1), .op2 .sub .r9 .r9 .r7 (.lsl 7), .op1 (.lsr 3) .r9 .r9,
  .op2 .sub .r9 .r9 .r8 .id, .op2 .mul .r9 .r9 .lr .id, .op2 .sub .r8 .r8 .r9 .id, .op2 .sub .r2 .r2 .r3 .id, .op1 (.lsr 1) .r2 .r2,
  .op2 .sub .r3 .r4 .r5 .id, .op1 (.lsr 2) .r3 .r3, .op2 .sub .r3 .r3 .r2 .id, .op2 .mul .r3 .r3 .lr .id, .op2 .add .r4 .r7 .r7 (.lsl 3),
  .op2 .add .r4 .r4 .r9 .id, .op2 .add .r4 .r4 .r4 (.lsl 3), .op2 .add .r4 .r4 .r8 .id, .op2 .add .r4 .r4 .r4 (.lsl 3),
  .op2 .add .r4 .r4 .r1 .id, .op2 .sub .r4 .r6 .r4 .id, .op2 .mul .r4 .r4 .lr .id, .op2 .sub .r4 .r4 .r2 .id, .op1 (.lsr 3) .r4 .r4,
  .op2 .sub .r4 .r4 .r3 .id, .op2 .mul .r5 .r4 .ip .id, .op2 .sub .r6 .r3 .r4 .id]

/-- mult_toom4_256_16.s:4892-5011 -/
def polymul_asm_38 : List Ins := [
  .op2 .sub .r3 .r2 .r6 .id, .op2 .sub .r3 .r3 .r5 .id, .strh .r1 .r0 66 .off, .strh .r3 .r0 194 .off, .strh .r8 .r0 322 .off,
  .strh .r6 .r0 450 .off, .strh .r9 .r0 578 .off, .strh .r5 .r0 706 .off, .strh .r7 .r0 834 .off, .ldrh .r1 .sp 68 .off,
  .ldrh .r2 .sp 324 .off, .ldrh .r3 .sp 580 .off, .ldrh .r4 .sp 836 .off, .ldrh .r5 .fp 68 .off, .ldrh .r6 .fp 324 .off,
  .ldrh .r7 .fp 580 .off, .op2 .add .r8 .r2 .r3 .id, .op1 (.lsr 1) .r8 .r8, .op2 .sub .r8 .r8 .r1 .id, .op2 .sub .r8 .r8 .r7 .id,
  .op2 .add .r9 .r4 .r5 .id, .op2 .sub .r9 .r9 .r1 (.lsl 1), .op2 .sub .r9 .r9 .r7 (.lsl 7), .op1 (.lsr 3) .r9 .r9,
  .op2 .sub .r9 .r9 .r8 .id, .op2 .mul .r9 .r9 .lr .id, .op2 .sub .r8 .r8 .r9 .id, .op2 .sub .r2 .r2 .r3 .id, .op1 (.lsr 1) .r2 .r2,
  .op2 .sub .r3 .r4 .r5 .id, .op1 (.lsr 2) .r3 .r3, .op2 .sub .r3 .r3 .r2 .id, .op2 .mul .r3 .r3 .lr .id, .op2 .add .r4 .r7 .r7 (.lsl 3),
  .op2 .add .r4 .r4 .r9 .id, .op2 .add .r4 .r4 .r4 (.lsl 3), .op2 .add .r4 .r4 .r8 .id, .op2 .add .r4 .r4 .r4 (.lsl 3),
  .op2 .add .r4 .r4 .r1 .id, .op2 .sub .r4 .r6 .r4 .id, .op2 .mul .r4 .r4 .lr .id, .op2 .sub .r4 .r4 .r2 .id, .op1 (.lsr 3) .r4 .r4,
  .op2 .sub .r4 .r4 .r3 .id, .op2 .mul .r5 .r4 .ip .id, .op2 .sub .r6 .r3 .r4 .id, .op2 .sub .r3 .r2 .r6 .id, .op2 .sub .r3 .r3 .r5 .id,
  .strh .r1 .r0 68 .off, .strh .r3 .r0 196 .off, .strh .r8 .r0 324 .off, .strh .r6 .r0 452 .off, .strh .r9 .r0 580 .off,
  .strh .r5 .r0 708 .off, .strh .r7 .r0 836 .off, .ldrh .r1 .sp 70 .off, .ldrh .r2 .sp 326 .off, .ldrh .r3 .sp 582 .off,
  .ldrh .r4 .sp 838 .off, .ldrh .r5 .fp 70 .off, .ldrh .r6 .fp 326 .off, .ldrh .r7 .fp 582 .off, .op2 .add .r8 .r2 .r3 .id,
  .op1 (.lsr 1) .r8 .r8, .op2 .sub .r8 .r8 .r1 .id, .op2 .sub .r8 .r8 .r7 .id, .op2 .add .r9 .r4 .r5 .id, .op2 .sub .r9 .r9 .r1 (.lsl 1),
  .op2 .sub .r9 .r9 .r7 (.lsl 7), .op1 (.lsr 3) .r9 .r9, .op2 .sub .r9 .r9 .r8 .id, .op2 .mul .r9 .r9 .lr .id, .op2 .sub .r8 .r8 .r9 .id,
  .op2 .sub .r2 .r2 .r3 .id, .op1 (.lsr 1) .r2 .r2, .op2 .sub .r3 .r4 .r5 .id, .op1 (.lsr 2) .r3 .r3, .op2 .sub .r3 .r3 .r2 .id,
  .op2 .mul .r3 .r3 .lr .id, .op2 .add .r4 .r7 .r7 (.lsl 3), .op2 .add .r4 .r4 .r9 .id, .op2 .add .r4 .r4 .r4 (.lsl 3),
  .op2 .add .r4 .r4 .r8 .id, .op2 .add .r4 .r4 .r4 (.lsl 3), .op2 .add .r4 .r4 .r1 .id, .op2 .sub .r4 .r6 .r4 .id,
  .op2 .mul .r4 .r4 .lr .id, .op2 .sub .r4 .r4 .r2 .id, .op1 (.lsr 3) .r4 .r4, .op2 .sub .r4 .r4 .r3 .id, .op2 .mul .r5 .r4 .ip .id,
  .op2 .sub .r6 .r3 .r4 .id, .op2 .sub .r3 .r2 .r6 .id, .op2 .sub .r3 .r3 .r5 .id, .strh .r1 .r0 70 .off, .strh .r3 .r0 198 .off,
  .strh .r8 .r0 326 .off, .strh .r6 .r0 454 .off, .strh .r9 .r0 582 .off, .strh .r5 .r0 710 .off, .strh .r7 .r0 838 .off,
  .ldrh .r1 .sp 72 .off, .ldrh .r2 .sp 328 .off, .ldrh .r3 .sp 584 .off, .ldrh .r4 .sp 840 .off, .ldrh .r5 .fp 72 .off,
  .ldrh .r6 .fp 328 .off, .ldrh .r7 .fp 584 .off, .op2 .add .r8 .r2 .r3 .id, .op1 (.lsr 1) .r8 .r8, .op2 .sub .r8 .r8 .r1 .id,
  .op2 .sub .r8 .r8 .r7 .id, .op2 .add .r9 .r4 .r5 .id, .op2 .sub .r9 .r9 .r1 (.lsl 1), .op2 .sub .r9 .r9 .r7 (.lsl 7),
  .op1 (.lsr 3) .r9 .r9, .op2 .sub .r9 .r9 .r8 .id, .op2 .mul .r9 .r9 .lr .id, .op2 .sub .r8 .r8 .r9 .id, .op2 .sub .r2 .r2 .r3 .id]

/-- mult_toom4_256_16.s:5012-5131 -/
def polymul_asm_39 : List Ins := [
  .op1 (.lsr 1) .r2 .r2, .op2 .sub .r3 .r4 .r5 .id, .op1 (.lsr 2) .r3 .r3, .op2 .sub .r3 .r3 .r2 .id, .op2 .mul .r3 .r3 .lr .id,
  .op2 .add .r4 .r7 .r7 (.lsl 3), .op2 .add .r4 .r4 .r9 .id, .op2 .add .r4 .r4 .r4 (.lsl 3), .op2 .add .r4 .r4 .r8 .id,
  .op2 .add .r4 .r4 .r4 (.lsl 3), .op2 .add .r4 .r4 .r1 .id, .op2 .sub .r4 .r6 .r4 .id, .op2 .mul .r4 .r4 .lr .id,
  .op2 .sub .r4 .r4 .r2 .id, .op1 (.lsr 3) .r4 .r4, .op2 .sub .r4 .r4 .r3 .id, .op2 .mul .r5 .r4 .ip .id, .op2 .sub .r6 .r3 .r4 .id,
  .op2 .sub .r3 .r2 .r6 .id, .op2 .sub .r3 .r3 .r5 .id, .strh .r1 .r0 72 .off, .strh .r3 .r0 200 .off, .strh .r8 .r0 328 .off,
  .strh .r6 .r0 456 .off, .strh .r9 .r0 584 .off, .strh .r5 .r0 712 .off, .strh .r7 .r0 840 .off, .ldrh .r1 .sp 74 .off,
  .ldrh .r2 .sp 330 .off, .ldrh .r3 .sp 586 .off, .ldrh .r4 .sp 842 .off, .ldrh .r5 .fp 74 .off, .ldrh .r6 .fp 330 .off,
  .ldrh .r7 .fp 586 .off, .op2 .add .r8 .r2 .r3 .id, .op1 (.lsr 1) .r8 .r8, .op2 .sub .r8 .r8 .r1 .id, .op2 .sub .r8 .r8 .r7 .id,
  .op2 .add .r9 .r4 .r5 .id, .op2 .sub .r9 .r9 .r1 (.lsl 1), .op2 .sub .r9 .r9 .r7 (.lsl 7), .op1 (.lsr 3) .r9 .r9,
  .op2 .sub .r9 .r9 .r8 .id, .op2 .mul .r9 .r9 .lr .id, .op2 .sub .r8 .r8 .r9 .id, .op2 .sub .r2 .r2 .r3 .id, .op1 (.lsr 1) .r2 .r2,
  .op2 .sub .r3 .r4 .r5 .id, .op1 (.lsr 2) .r3 .r3, .op2 .sub .r3 .r3 .r2 .id, .op2 .mul .r3 .r3 .lr .id, .op2 .add .r4 .r7 .r7 (.lsl 3),
  .op2 .add .r4 .r4 .r9 .id, .op2 .add .r4 .r4 .r4 (.lsl 3), .op2 .add .r4 .r4 .r8 .id, .op2 .add .r4 .r4 .r4 (.lsl 3),
  .op2 .add .r4 .r4 .r1 .id, .op2 .sub .r4 .r6 .r4 .id, .op2 .mul .r4 .r4 .lr .id, .op2 .sub .r4 .r4 .r2 .id, .op1 (.lsr 3) .r4 .r4,
  .op2 .sub .r4 .r4 .r3 .id, .op2 .mul .r5 .r4 .ip .id, .op2 .sub .r6 .r3 .r4 .id, .op2 .sub .r3 .r2 .r6 .id, .op2 .sub .r3 .r3 .r5 .id,
  .strh .r1 .r0 74 .off, .strh .r3 .r0 202 .off, .strh .r8 .r0 330 .off, .strh .r6 .r0 458 .off, .strh .r9 .r0 586 .off,
  .strh .r5 .r0 714 .off, .strh .r7 .r0 842 .off, .ldrh .r1 .sp 76 .off, .ldrh .r2 .sp 332 .off, .ldrh .r3 .sp 588 .off,
  .ldrh .r4 .sp 844 .off, .ldrh .r5 .fp 76 .off, .ldrh .r6 .fp 332 .off, .ldrh .r7 .fp 588 .off, .op2 .add .r8 .r2 .r3 .id,
  .op1 (.lsr 1) .r8 .r8, .op2 .sub .r8 .r8 .r1 .id, .op2 .sub .r8 .r8 .r7 .id, .op2 .add .r9 .r4 .r5 .id, .op2 .sub .r9 .r9 .r1 (.lsl 1),
  .op2 .sub .r9 .r9 .r7 (.lsl 7), .op1 (.lsr 3) .r9 .r9, .op2 .sub .r9 .r9 .r8 .id, .op2 .mul .r9 .r9 .lr .id, .op2 .sub .r8 .r8 .r9 .id,
  .op2 .sub .r2 .r2 .r3 .id, .op1 (.lsr 1) .r2 .r2, .op2 .sub .r3 .r4 .r5 .id, .op1 (.lsr 2) .r3 .r3, .op2 .sub .r3 .r3 .r2 .id,
  .op2 .mul .r3 .r3 .lr .id, .op2 .add .r4 .r7 .r7 (.lsl 3), .op2 .add .r4 .r4 .r9 .id, .op2 .add .r4 .r4 .r4 (.lsl 3),
  .op2 .add .r4 .r4 .r8 .id, .op2 .add .r4 .r4 .r4 (.lsl 3), .op2 .add .r4 .r4 .r1 .id, .op2 .sub .r4 .r6 .r4 .id,
  .op2 .mul .r4 .r4 .lr .id, .op2 .sub .r4 .r4 .r2 .id, .op1 (.lsr 3) .r4 .r4, .op2 .sub .r4 .r4 .r3 .id, .op2 .mul .r5 .r4 .ip .id,
  .op2 .sub .r6 .r3 .r4 .id, .op2 .sub .r3 .r2 .r6 .id, .op2 .sub .r3 .r3 .r5 .id, .strh .r1 .r0 76 .off, .strh .r3 .r0 204 .off,
  .strh .r8 .r0 332 .off, .strh .r6 .r0 460 .off, .strh .r9 .r0 588 .off, .strh .r5 .r0 716 .off, .strh .r7 .r0 844 .off,
  .ldrh .r1 .sp 78 .off]

/-- mult_toom4_256_16.s:5132-5251 -/
def polymul_asm_40 : List Ins := [
  .ldrh .r2 .sp 334 .off, .ldrh .r3 .sp 590 .off, .ldrh .r4 .sp 846 .off, .ldrh .r5 .fp 78 .off, .ldrh .r6 .fp 334 .off,
  .ldrh .r7 .fp 590 .off, .op2 .add .r8 .r2 .r3 .id, .op1 (.lsr 1) .r8 .r8, .op2 .sub .r8 .r8 .r1 .id, .op2 .sub .r8 .r8 .r7 .id,
  .op2 .add .r9 .r4 .r5 .id, .op2 .sub .r9 .r9 .r1 (.lsl 1), .op2 .sub .r9 .r9 .r7 (.lsl 7), .op1 (.lsr 3) .r9 .r9,
  .op2 .sub .r9 .r9 .r8 .id, .op2 .mul .r9 .r9 .lr .id, .op2 .sub .r8 .r8 .r9 .id, .op2 .sub .r2 .r2 .r3 .id, .op1 (.lsr 1) .r2 .r2,
  .op2 .sub .r3 .r4 .r5 .id, .op1 (.lsr 2) .r3 .r3, .op2 .sub .r3 .r3 .r2 .id, .op2 .mul .r3 .r3 .lr .id, .op2 .add .r4 .r7 .r7 (.lsl 3),
  .op2 .add .r4 .r4 .r9 .id, .op2 .add .r4 .r4 .r4 (.lsl 3), .op2 .add .r4 .r4 .r8 .id, .op2 .add .r4 .r4 .r4 (.lsl 3),
  .op2 .add .r4 .r4 .r1 .id, .op2 .sub .r4 .r6 .r4 .id, .op2 .mul .r4 .r4 .lr .id, .op2 .sub .r4 .r4 .r2 .id, .op1 (.lsr 3) .r4 .r4,
  .op2 .sub .r4 .r4 .r3 .id, .op2 .mul .r5 .r4 .ip .id, .op2 .sub .r6 .r3 .r4 .id, .op2 .sub .r3 .r2 .r6 .id, .op2 .sub .r3 .r3 .r5 .id,
  .strh .r1 .r0 78 .off, .strh .r3 .r0 206 .off, .strh .r8 .r0 334 .off, .strh .r6 .r0 462 .off, .strh .r9 .r0 590 .off,
  .strh .r5 .r0 718 .off, .strh .r7 .r0 846 .off, .ldrh .r1 .sp 80 .off, .ldrh .r2 .sp 336 .off, .ldrh .r3 .sp 592 .off,
  .ldrh .r4 .sp 848 .off, .ldrh .r5 .fp 80 .off, .ldrh .r6 .fp 336 .off, .ldrh .r7 .fp 592 .off, .op2 .add .r8 .r2 .r3 .id,
  .op1 (.lsr 1) .r8 .r8, .op2 .sub .r8 .r8 .r1 .id, .op2 .sub .r8 .r8 .r7 .id, .op2 .add .r9 .r4 .r5 .id, .op2 .sub .r9 .r9 .r1 (.lsl 1),
  .op2 .sub .r9 .r9 .r7 (.lsl 7), .op1 (.lsr 3) .r9 .r9, .op2 .sub .r9 .r9 .r8 .id, .op2 .mul .r9 .r9 .lr .id, .op2 .sub .r8 .r8 .r9 .id,
  .op2 .sub .r2 .r2 .r3 .id, .op1 (.lsr 1) .r2 .r2, .op2 .sub .r3 .r4 .r5 .id, .op1 (.lsr 2) .r3 .r3, .op2 .sub .r3 .r3 .r2 .id,
  .op2 .mul .r3 .r3 .lr .id, .op2 .add .r4 .r7 .r7 (.lsl 3), .op2 .add .r4 .r4 .r9 .id, .op2 .add .r4 .r4 .r4 (.lsl 3),
  .op2 .add .r4 .r4 .r8 .id, .op2 .add .r4 .r4 .r4 (.lsl 3), .op2 .add .r4 .r4 .r1 .id, .op2 .sub .r4 .r6 .r4 .id,
  .op2 .mul .r4 .r4 .lr .id, .op2 .sub .r4 .r4 .r2 .id, .op1 (.lsr 3) .r4 .r4, .op2 .sub .r4 .r4 .r3 .id, .op2 .mul .r5 .r4 .ip .id,
  .op2 .sub .r6 .r3 .r4 .id, .op2 .sub .r3 .r2 .r6 .id, .op2 .sub .r3 .r3 .r5 .id, .strh .r1 .r0 80 .off, .strh .r3 .r0 208 .off,
  .strh .r8 .r0 336 .off, .strh .r6 .r0 464 .off, .strh .r9 .r0 592 .off, .strh .r5 .r0 720 .off, .strh .r7 .r0 848 .off,
  .ldrh .r1 .sp 82 .off, .ldrh .r2 .sp 338 .off, .ldrh .r3 .sp 594 .off, .ldrh .r4 .sp 850 .off, .ldrh .r5 .fp 82 .off,
  .ldrh .r6 .fp 338 .off, .ldrh .r7 .fp 594 .off, .op2 .add .r8 .r2 .r3 .id, .op1 (.lsr 1) .r8 .r8, .op2 .sub .r8 .r8 .r1 .id,
  .op2 .sub .r8 .r8 .r7 .id, .op2 .add .r9 .r4 .r5 .id, .op2 .sub .r9 .r9 .r1 (.lsl 1), .op2 .sub .r9 .r9 .r7 (.lsl 7),
  .op1 (.lsr 3) .r9 .r9, .op2 .sub .r9 .r9 .r8 .id, .op2 .mul .r9 .r9 .lr .id, .op2 .sub .r8 .r8 .r9 .id, .op2 .sub .r2 .r2 .r3 .id,
  .op1 (.lsr 1) .r2 .r2, .op2 .sub .r3 .r4 .r5 .id, .op1 (.lsr 2) .r3 .r3, .op2 .sub .r3 .r3 .r2 .id, .op2 .mul .r3 .r3 .lr .id,
  .op2 .add .r4 .r7 .r7 (.lsl 3), .op2 .add .r4 .r4 .r9 .id, .op2 .add .r4 .r4 .r4 (.lsl 3), .op2 .add .r4 .r4 .r8 .id,
  .op2 .add .r4 .r4 .r4 (.lsl 3)]

/-- mult_toom4_256_16.s:5252-5371 -/
def polymul_asm_41 : List Ins := [
  .op2 .add .r4 .r4 .r1 .id, .op2 .sub .r4 .r6 .r4 .id, .op2 .mul .r4 .r4 .lr .id, .op2 .sub .r4 .r4 .r2 .id, .op1 (.lsr 3) .r4 .r4,
  .op2 .sub .r4 .r4 .r3 .id, .op2 .mul .r5 .r4 .ip .id, .op2 .sub .r6 .r3 .r4 .id, .op2 .sub .r3 .r2 .r6 .id, .op2 .sub .r3 .r3 .r5 .id,
  .strh .r1 .r0 82 .off, .strh .r3 .r0 210 .off, .strh .r8 .r0 338 .off, .strh .r6 .r0 466 .off, .strh .r9 .r0 594 .off,
  .strh .r5 .r0 722 .off, .strh .r7 .r0 850 .off, .ldrh .r1 .sp 84 .off, .ldrh .r2 .sp 340 .off, .ldrh .r3 .sp 596 .off,
  .ldrh .r4 .sp 852 .off, .ldrh .r5 .fp 84 .off, .ldrh .r6 .fp 340 .off, .ldrh .r7 .fp 596 .off, .op2 .add .r8 .r2 .r3 .id,
  .op1 (.lsr 1) .r8 .r8, .op2 .sub .r8 .r8 .r1 .id, .op2 .sub .r8 .r8 .r7 .id, .op2 .add .r9 .r4 .r5 .id, .op2 .sub .r9 .r9 .r1 (.lsl 1),
  .op2 .sub .r9 .r9 .r7 (.lsl 7), .op1 (.lsr 3) .r9 .r9, .op2 .sub .r9 .r9 .r8 .id, .op2 .mul .r9 .r9 .lr .id, .op2 .sub .r8 .r8 .r9 .id,
  .op2 .sub .r2 .r2 .r3 .id, .op1 (.lsr 1) .r2 .r2, .op2 .sub .r3 .r4 .r5 .id, .op1 (.lsr 2) .r3 .r3, .op2 .sub .r3 .r3 .r2 .id,
  .op2 .mul .r3 .r3 .lr .id, .op2 .add .r4 .r7 .r7 (.lsl 3), .op2 .add .r4 .r4 .r9 .id, .op2 .add .r4 .r4 .r4 (.lsl 3),
  .op2 .add .r4 .r4 .r8 .id, .op2 .add .r4 .r4 .r4 (.lsl 3), .op2 .add .r4 .r4 .r1 .id, .op2 .sub .r4 .r6 .r4 .id,
  .op2 .mul .r4 .r4 .lr .id, .op2 .sub .r4 .r4 .r2 .id, .op1 (.lsr 3) .r4 .r4, .op2 .sub .r4 .r4 .r3 .id, .op2 .mul .r5 .r4 .ip .id,
  .op2 .sub .r6 .r3 .r4 .id, .op2 .sub .r3 .r2 .r6 .id, .op2 .sub .r3 .r3 .r5 .id, .strh .r1 .r0 84 .off, .strh .r3 .r0 212 .off,
  .strh .r8 .r0 340 .off, .strh .r6 .r0 468 .off, .strh .r9 .r0 596 .off, .strh .r5 .r0 724 .off, .strh .r7 .r0 852 .off,
  .ldrh .r1 .sp 86 .off, .ldrh .r2 .sp 342 .off, .ldrh .r3 .sp 598 .off, .ldrh .r4 .sp 854 .off, .ldrh .r5 .fp 86 .off,
  .ldrh .r6 .fp 342 .off, .ldrh .r7 .fp 598 .off, .op2 .add .r8 .r2 .r3 .id, .op1 (.lsr 1) .r8 .r8, .op2 .sub .r8 .r8 .r1 .id,
  .op2 .sub .r8 .r8 .r7 .id, .op2 .add .r9 .r4 .r5 .id, .op2 .sub .r9 .r9 .r1 (.lsl 1), .op2 .sub .r9 .r9 .r7 (.lsl 7),
  .op1 (.lsr 3) .r9 .r9, .op2 .sub .r9 .r9 .r8 .id, .op2 .mul .r9 .r9 .lr .id, .op2 .sub .r8 .r8 .r9 .id, .op2 .sub .r2 .r2 .r3 .id,
  .op1 (.lsr 1) .r2 .r2, .op2 .sub .r3 .r4 .r5 .id, .op1 (.lsr 2) .r3 .r3, .op2 .sub .r3 .r3 .r2 .id, .op2 .mul .r3 .r3 .lr .id,
  .op2 .add .r4 .r7 .r7 (.lsl 3), .op2 .add .r4 .r4 .r9 .id, .op2 .add .r4 .r4 .r4 (.lsl 3), .op2 .add .r4 .r4 .r8 .id,
  .op2 .add .r4 .r4 .r4 (.lsl 3), .op2 .add .r4 .r4 .r1 .id, .op2 .sub .r4 .r6 .r4 .id, .op2 .mul .r4 .r4 .lr .id,
  .op2 .sub .r4 .r4 .r2 .id, .op1 (.lsr 3) .r4 .r4, .op2 .sub .r4 .r4 .r3 .id, .op2 .mul .r5 .r4 .ip .id, .op2 .sub .r6 .r3 .r4 .id,
  .op2 .sub .r3 .r2 .r6 .id, .op2 .sub .r3 .r3 .r5 .id, .strh .r1 .r0 86 .off, .strh .r3 .r0 214 .off, .strh .r8 .r0 342 .off,
  .strh .r6 .r0 470 .off, .strh .r9 .r0 598 .off, .strh .r5 .r0 726 .off, .strh .r7 .r0 854 .off, .ldrh .r1 .sp 88 .off,
  .ldrh .r2 .sp 344 .off, .ldrh .r3 .sp 600 .off, .ldrh .r4 .sp 856 .off, .ldrh .r5 .fp 88 .off, .ldrh .r6 .fp 344 .off,
  .ldrh .r7 .fp 600 .off, .op2 .add .r8 .r2 .r3 .id, .op1 (.lsr 1) .r8 .r8, .op2 .sub .r8 .r8 .r1 .id, .op2 .sub .r8 .r8 .r7 .id]

/-- mult_toom4_256_16.s:5372-5491 -/
def polymul_asm_42 : List Ins := [
  .op2 .add .r9 .r4 .r5 .id, .op2 .sub .r9 .r9 .r1 (.lsl 1), .op2 .sub .r9 .r9 .r7 (.lsl 7), .op1 (.lsr 3) .r9 .r9,
  .op2 .sub .r9 .r9 .r8 .id, .op2 .mul .r9 .r9 .lr .id, .op2 .sub .r8 .r8 .r9 .id, .op2 .sub .r2 .r2 .r3 .id, .op1 (.lsr 1) .r2 .r2,
  .op2 .sub .r3 .r4 .r5 .id, .op1 (.lsr 2) .r3 .r3, .op2 .sub .r3 .r3 .r2 .id, .op2 .mul .r3 .r3 .lr .id, .op2 .add .r4 .r7 .r7 (.lsl 3),
  .op2 .add .r4 .r4 .r9 .id, .op2 .add .r4 .r4 .r4 (.lsl 3), .op2 .add .r4 .r4 .r8 .id, .op2 .add .r4 .r4 .r4 (.lsl 3),
  .op2 .add .r4 .r4 .r1 .id, .op2 .sub .r4 .r6 .r4 .id, .op2 .mul .r4 .r4 .lr .id, .op2 .sub .r4 .r4 .r2 .id, .op1 (.lsr 3) .r4 .r4,
  .op2 .sub .r4 .r4 .r3 .id, .op2 .mul .r5 .r4 .ip .id, .op2 .sub .r6 .r3 .r4 .id, .op2 .sub .r3 .r2 .r6 .id, .op2 .sub .r3 .r3 .r5 .id,
  .strh .r1 .r0 88 .off, .strh .r3 .r0 216 .off, .strh .r8 .r0 344 .off, .strh .r6 .r0 472 .off, .strh .r9 .r0 600 .off,
  .strh .r5 .r0 728 .off, .strh .r7 .r0 856 .off, .ldrh .r1 .sp 90 .off, .ldrh .r2 .sp 346 .off, .ldrh .r3 .sp 602 .off,
  .ldrh .r4 .sp 858 .off, .ldrh .r5 .fp 90 .off, .ldrh .r6 .fp 346 .off, .ldrh .r7 .fp 602 .off, .op2 .add .r8 .r2 .r3 .id,
  .op1 (.lsr 1) .r8 .r8, .op2 .sub .r8 .r8 .r1 .id, .op2 .sub .r8 .r8 .r7 .id, .op2 .add .r9 .r4 .r5 .id, .op2 .sub .r9 .r9 .r1 (.lsl 1),
  .op2 .sub .r9 .r9 .r7 (.lsl 7), .op1 (.lsr 3) .r9 .r9, .op2 .sub .r9 .r9 .r8 .id, .op2 .mul .r9 .r9 .lr .id, .op2 .sub .r8 .r8 .r9 .id,
  .op2 .sub .r2 .r2 .r3 .id, .op1 (.lsr 1) .r2 .r2, .op2 .sub .r3 .r4 .r5 .id, .op1 (.lsr 2) .r3 .r3, .op2 .sub .r3 .r3 .r2 .id,
  .op2 .mul .r3 .r3 .lr .id, .op2 .add .r4 .r7 .r7 (.lsl 3), .op2 .add .r4 .r4 .r9 .id, .op2 .add .r4 .r4 .r4 (.lsl 3),
  .op2 .add .r4 .r4 .r8 .id, .op2 .add .r4 .r4 .r4 (.lsl 3), .op2 .add .r4 .r4 .r1 .id, .op2 .sub .r4 .r6 .r4 .id,
  .op2 .mul .r4 .r4 .lr .id, .op2 .sub .r4 .r4 .r2 .id, .op1 (.lsr 3) .r4 .r4, .op2 .sub .r4 .r4 .r3 .id, .op2 .mul .r5 .r4 .ip .id,
  .op2 .sub .r6 .r3 .r4 .id, .op2 .sub .r3 .r2 .r6 .id, .op2 .sub .r3 .r3 .r5 .id, .strh .r1 .r0 90 .off, .strh .r3 .r0 218 .off,
  .strh .r8 .r0 346 .off, .strh .r6 .r0 474 .off, .strh .r9 .r0 602 .off, .strh .r5 .r0 730 .off, .strh .r7 .r0 858 .off,
  .ldrh .r1 .sp 92 .off, .ldrh .r2 .sp 348 .off, .ldrh .r3 .sp 604 .off, .ldrh .r4 .sp 860 .off, .ldrh .r5 .fp 92 .off,
  .ldrh .r6 .fp 348 .off, .ldrh .r7 .fp 604 .off, .op2 .add .r8 .r2 .r3 .id, .op1 (.lsr 1) .r8 .r8, .op2 .sub .r8 .r8 .r1 .id,
  .op2 .sub .r8 .r8 .r7 .id, .op2 .add .r9 .r4 .r5 .id, .op2 .sub .r9 .r9 .r1 (.lsl 1), .op2 .sub .r9 .r9 .r7 (.lsl 7),
  .op1 (.lsr 3) .r9 .r9, .op2 .sub .r9 .r9 .r8 .id, .op2 .mul .r9 .r9 .lr .id, .op2 .sub .r8 .r8 .r9 .id, .op2 .sub .r2 .r2 .r3 .id,
  .op1 (.lsr 1) .r2 .r2, .op2 .sub .r3 .r4 .r5 .id, .op1 (.lsr 2) .r3 .r3, .op2 .sub .r3 .r3 .r2 .id, .op2 .mul .r3 .r3 .lr .id,
  .op2 .add .r4 .r7 .r7 (.lsl 3), .op2 .add .r4 .r4 .r9 .id, .op2 .add .r4 .r4 .r4 (.lsl 3), .op2 .add .r4 .r4 .r8 .id,
  .op2 .add .r4 .r4 .r4 (.lsl 3), .op2 .add .r4 .r4 .r1 .id, .op2 .sub .r4 .r6 .r4 .id, .op2 .mul .r4 .r4 .lr .id,
  .op2 .sub .r4 .r4 .r2 .id, .op1 (.lsr 3) .r4 .r4, .op2 .sub .r4 .r4 .r3 .id, .op2 .mul .r5 .r4 .ip .id, .op2 .sub .r6 .r3 .r4 .id,
  .op2 .sub .r3 .r2 .r6 .id, .op2 .sub .r3 .r3 .r5 .id]

/-- mult_toom4_256_16.s:5492-5611 -/
def polymul_asm_43 : List Ins := [
  .strh .r1 .r0 92 .off, .strh .r3 .r0 220 .off, .strh .r8 .r0 348 .off, .strh .r6 .r0 476 .off, .strh .r9 .r0 604 .off,
  .strh .r5 .r0 732 .off, .strh .r7 .r0 860 .off, .ldrh .r1 .sp 94 .off, .ldrh .r2 .sp 350 .off, .ldrh .r3 .sp 606 .off,
  .ldrh .r4 .sp 862 .off, .ldrh .r5 .fp 94 .off, .ldrh .r6 .fp 350 .off, .ldrh .r7 .fp 606 .off, .op2 .add .r8 .r2 .r3 .id,
  .op1 (.lsr 1) .r8 .r8, .op2 .sub .r8 .r8 .r1 .id, .op2 .sub .r8 .r8 .r7 .id, .op2 .add .r9 .r4 .r5 .id, .op2 .sub .r9 .r9 .r1 (.lsl 1),
  .op2 .sub .r9 .r9 .r7 (.lsl 7), .op1 (.lsr 3) .r9 .r9, .op2 .sub .r9 .r9 .r8 .id, .op2 .mul .r9 .r9 .lr .id, .op2 .sub .r8 .r8 .r9 .id,
  .op2 .sub .r2 .r2 .r3 .id, .op1 (.lsr 1) .r2 .r2, .op2 .sub .r3 .r4 .r5 .id, .op1 (.lsr 2) .r3 .r3, .op2 .sub .r3 .r3 .r2 .id,
  .op2 .mul .r3 .r3 .lr .id, .op2 .add .r4 .r7 .r7 (.lsl 3), .op2 .add .r4 .r4 .r9 .id, .op2 .add .r4 .r4 .r4 (.lsl 3),
  .op2 .add .r4 .r4 .r8 .id, .op2 .add .r4 .r4 .r4 (.lsl 3), .op2 .add .r4 .r4 .r1 .id, .op2 .sub .r4 .r6 .r4 .id,
  .op2 .mul .r4 .r4 .lr .id, .op2 .sub .r4 .r4 .r2 .id, .op1 (.lsr 3) .r4 .r4, .op2 .sub .r4 .r4 .r3 .id, .op2 .mul .r5 .r4 .ip .id,
  .op2 .sub .r6 .r3 .r4 .id, .op2 .sub .r3 .r2 .r6 .id, .op2 .sub .r3 .r3 .r5 .id, .strh .r1 .r0 94 .off, .strh .r3 .r0 222 .off,
  .strh .r8 .r0 350 .off, .strh .r6 .r0 478 .off, .strh .r9 .r0 606 .off, .strh .r5 .r0 734 .off, .strh .r7 .r0 862 .off,
  .ldrh .r1 .sp 96 .off, .ldrh .r2 .sp 352 .off, .ldrh .r3 .sp 608 .off, .ldrh .r4 .sp 864 .off, .ldrh .r5 .fp 96 .off,
  .ldrh .r6 .fp 352 .off, .ldrh .r7 .fp 608 .off, .op2 .add .r8 .r2 .r3 .id, .op1 (.lsr 1) .r8 .r8, .op2 .sub .r8 .r8 .r1 .id,
  .op2 .sub .r8 .r8 .r7 .id, .op2 .add .r9 .r4 .r5 .id, .op2 .sub .r9 .r9 .r1 (.lsl 1), .op2 .sub .r9 .r9 .r7 (.lsl 7),
  .op1 (.lsr 3) .r9 .r9, .op2 .sub .r9 .r9 .r8 .id, .op2 .mul .r9 .r9 .lr .id, .op2 .sub .r8 .r8 .r9 .id, .op2 .sub .r2 .r2 .r3 .id,
  .op1 (.lsr 1) .r2 .r2, .op2 .sub .r3 .r4 .r5 .id, .op1 (.lsr 2) .r3 .r3, .op2 .sub .r3 .r3 .r2 .id, .op2 .mul .r3 .r3 .lr .id,
  .op2 .add .r4 .r7 .r7 (.lsl 3), .op2 .add .r4 .r4 .r9 .id, .op2 .add .r4 .r4 .r4 (.lsl 3), .op2 .add .r4 .r4 .r8 .id,
  .op2 .add .r4 .r4 .r4 (.lsl 3), .op2 .add .r4 .r4 .r1 .id, .op2 .sub .r4 .r6 .r4 .id, .op2 .mul .r4 .r4 .lr .id,
  .op2 .sub .r4 .r4 .r2 .id, .op1 (.lsr 3) .r4 .r4, .op2 .sub .r4 .r4 .r3 .id, .op2 .mul .r5 .r4 .ip .id, .op2 .sub .r6 .r3 .r4 .id,
  .op2 .sub .r3 .r2 .r6 .id, .op2 .sub .r3 .r3 .r5 .id, .strh .r1 .r0 96 .off, .strh .r3 .r0 224 .off, .strh .r8 .r0 352 .off,
  .strh .r6 .r0 480 .off, .strh .r9 .r0 608 .off, .strh .r5 .r0 736 .off, .strh .r7 .r0 864 .off, .ldrh .r1 .sp 98 .off,
  .ldrh .r2 .sp 354 .off, .ldrh .r3 .sp 610 .off, .ldrh .r4 .sp 866 .off, .ldrh .r5 .fp 98 .off, .ldrh .r6 .fp 354 .off,
  .ldrh .r7 .fp 610 .off, .op2 .add .r8 .r2 .r3 .id, .op1 (.lsr 1) .r8 .r8, .op2 .sub .r8 .r8 .r1 .id, .op2 .sub .r8 .r8 .r7 .id,
  .op2 .add .r9 .r4 .r5 .id, .op2 .sub .r9 .r9 .r1 (.lsl 1), .op2 .sub .r9 .r9 .r7 (.lsl 7), .op1 (.lsr 3) .r9 .r9,
  .op2 .sub .r9 .r9 .r8 .id, .op2 .mul .r9 .r9 .lr .id, .op2 .sub .r8 .r8 .r9 .id, .op2 .sub .r2 .r2 .r3 .id, .op1 (.lsr 1) .r2 .r2,
  .op2 .sub .r3 .r4 .r5 .id]

/-- mult_toom4_256_16.s:5612-5731 -/
def polymul_asm_44 : List Ins := [
  .op1 (.lsr 2) .r3 .r3, .op2 .sub .r3 .r3 .r2 .id, .op2 .mul .r3 .r3 .lr .id, .op2 .add .r4 .r7 .r7 (.lsl 3), .op2 .add .r4 .r4 .r9 .id,
  .op2 .add .r4 .r4 .r4 (.lsl 3), .op2 .add .r4 .r4 .r8 .id, .op2 .add .r4 .r4 .r4 (.lsl 3), .op2 .add .r4 .r4 .r1 .id,
  .op2 .sub .r4 .r6 .r4 .id, .op2 .mul .r4 .r4 .lr .id, .op2 .sub .r4 .r4 .r2 .id, .op1 (.lsr 3) .r4 .r4, .op2 .sub .r4 .r4 .r3 .id,
  .op2 .mul .r5 .r4 .ip .id, .op2 .sub .r6 .r3 .r4 .id, .op2 .sub .r3 .r2 .r6 .id, .op2 .sub .r3 .r3 .r5 .id, .strh .r1 .r0 98 .off,
  .strh .r3 .r0 226 .off, .strh .r8 .r0 354 .off, .strh .r6 .r0 482 .off, .strh .r9 .r0 610 .off, .strh .r5 .r0 738 .off,
  .strh .r7 .r0 866 .off, .ldrh .r1 .sp 100 .off, .ldrh .r2 .sp 356 .off, .ldrh .r3 .sp 612 .off, .ldrh .r4 .sp 868 .off,
  .ldrh .r5 .fp 100 .off, .ldrh .r6 .fp 356 .off, .ldrh .r7 .fp 612 .off, .op2 .add .r8 .r2 .r3 .id, .op1 (.lsr 1) .r8 .r8,
  .op2 .sub .r8 .r8 .r1 .id, .op2 .sub .r8 .r8 .r7 .id, .op2 .add .r9 .r4 .r5 .id, .op2 .sub .r9 .r9 .r1 (.lsl 1),
  .op2 .sub .r9 .r9 .r7 (.lsl 7), .op1 (.lsr 3) .r9 .r9, .op2 .sub .r9 .r9 .r8 .id, .op2 .mul .r9 .r9 .lr .id, .op2 .sub .r8 .r8 .r9 .id,
  .op2 .sub .r2 .r2 .r3 .id, .op1 (.lsr 1) .r2 .r2, .op2 .sub .r3 .r4 .r5 .id, .op1 (.lsr 2) .r3 .r3, .op2 .sub .r3 .r3 .r2 .id,
  .op2 .mul .r3 .r3 .lr .id, .op2 .add .r4 .r7 .r7 (.lsl 3), .op2 .add .r4 .r4 .r9 .id, .op2 .add .r4 .r4 .r4 (.lsl 3),
  .op2 .add .r4 .r4 .r8 .id, .op2 .add .r4 .r4 .r4 (.lsl 3), .op2 .add .r4 .r4 .r1 .id, .op2 .sub .r4 .r6 .r4 .id,
  .op2 .mul .r4 .r4 .lr .id, .op2 .sub .r4 .r4 .r2 .id, .op1 (.lsr 3) .r4 .r4, .op2 .sub .r4 .r4 .r3 .id, .op2 .mul .r5 .r4 .ip .id,
  .op2 .sub .r6 .r3 .r4 .id, .op2 .sub .r3 .r2 .r6 .id, .op2 .sub .r3 .r3 .r5 .id, .strh .r1 .r0 100 .off, .strh .r3 .r0 228 .off,
  .strh .r8 .r0 356 .off, .strh .r6 .r0 484 .off, .strh .r9 .r0 612 .off, .strh .r5 .r0 740 .off, .strh .r7 .r0 868 .off,
  .ldrh .r1 .sp 102 .off, .ldrh .r2 .sp 358 .off, .ldrh .r3 .sp 614 .off, .ldrh .r4 .sp 870 .off, .ldrh .r5 .fp 102 .off,
  .ldrh .r6 .fp 358 .off, .ldrh .r7 .fp 614 .off, .op2 .add .r8 .r2 .r3 .id, .op1 (.lsr 1) .r8 .r8, .op2 .sub .r8 .r8 .r1 .id,
  .op2 .sub .r8 .r8 .r7 .id, .op2 .add .r9 .r4 .r5 .id, .op2 .sub .r9 .r9 .r1 (.lsl 1), .op2 .sub .r9 .r9 .r7 (.lsl 7),
  .op1 (.lsr 3) .r9 .r9, .op2 .sub .r9 .r9 .r8 .id, .op2 .mul .r9 .r9 .lr .id, .op2 .sub .r8 .r8 .r9 .id, .op2 .sub .r2 .r2 .r3 .id,
  .op1 (.lsr 1) .r2 .r2, .op2 .sub .r3 .r4 .r5 .id, .op1 (.lsr 2) .r3 .r3, .op2 .sub .r3 .r3 .r2 .id, .op2 .mul .r3 .r3 .lr .id,
  .op2 .add .r4 .r7 .r7 (.lsl 3), .op2 .add .r4 .r4 .r9 .id, .op2 .add .r4 .r4 .r4 (.lsl 3), .op2 .add .r4 .r4 .r8 .id,
  .op2 .add .r4 .r4 .r4 (.lsl 3), .op2 .add .r4 .r4 .r1 .id, .op2 .sub .r4 .r6 .r4 .id, .op2 .mul .r4 .r4 .lr .id,
  .op2 .sub .r4 .r4 .r2 .id, .op1 (.lsr 3) .r4 .r4, .op2 .sub .r4 .r4 .r3 .id, .op2 .mul .r5 .r4 .ip .id, .op2 .sub .r6 .r3 .r4 .id,
  .op2 .sub .r3 .r2 .r6 .id, .op2 .sub .r3 .r3 .r5 .id, .strh .r1 .r0 102 .off, .strh .r3 .r0 230 .off, .strh .r8 .r0 358 .off,
  .strh .r6 .r0 486 .off, .strh .r9 .r0 614 .off, .strh .r5 .r0 742 .off, .strh .r7 .r0 870 .off, .ldrh .r1 .sp 104 .off,
  .ldrh .r2 .sp 360 .off, .ldrh .r3 .sp 616 .off]

/-- mult_toom4_256_16.s:5732-5851 -/
def polymul_asm_45 : List Ins := [
  .ldrh .r4 .sp 872 .off, .ldrh .r5 .fp 104 .off, .ldrh .r6 .fp 360 .off, .ldrh .r7 .fp 616 .off, .op2 .add .r8 .r2 .r3 .id,
  .op1 (.lsr 1) .r8 .r8, .op2 .sub .r8 .r8 .r1 .id, .op2 .sub .r8 .r8 .r7 .id, .op2 .add .r9 .r4 .r5 .id, .op2 .sub .r9 .r9 .r1 (.lsl 1),
  .op2 .sub .r9 .r9 .r7 (.lsl 7), .op1 (.lsr 3) .r9 .r9, .op2 .sub .r9 .r9 .r8 .id, .op2 .mul .r9 .r9 .lr .id, .op2 .sub .r8 .r8 .r9 .id,
  .op2 .sub .r2 .r2 .r3 .id, .op1 (.lsr 1) .r2 .r2, .op2 .sub .r3 .r4 .r5 .id, .op1 (.lsr 2) .r3 .r3, .op2 .sub .r3 .r3 .r2 .id,
  .op2 .mul .r3 .r3 .lr .id, .op2 .add .r4 .r7 .r7 (.lsl 3), .op2 .add .r4 .r4 .r9 .id, .op2 .add .r4 .r4 .r4 (.lsl 3),
  .op2 .add .r4 .r4 .r8 .id, .op2 .add .r4 .r4 .r4 (.lsl 3), .op2 .add .r4 .r4 .r1 .id, .op2 .sub .r4 .r6 .r4 .id,
  .op2 .mul .r4 .r4 .lr .id, .op2 .sub .r4 .r4 .r2 .id, .op1 (.lsr 3) .r4 .r4, .op2 .sub .r4 .r4 .r3 .id, .op2 .mul .r5 .r4 .ip .id,
  .op2 .sub .r6 .r3 .r4 .id, .op2 .sub .r3 .r2 .r6 .id, .op2 .sub .r3 .r3 .r5 .id, .strh .r1 .r0 104 .off, .strh .r3 .r0 232 .off,
  .strh .r8 .r0 360 .off, .strh .r6 .r0 488 .off, .strh .r9 .r0 616 .off, .strh .r5 .r0 744 .off, .strh .r7 .r0 872 .off,
  .ldrh .r1 .sp 106 .off, .ldrh .r2 .sp 362 .off, .ldrh .r3 .sp 618 .off, .ldrh .r4 .sp 874 .off, .ldrh .r5 .fp 106 .off,
  .ldrh .r6 .fp 362 .off, .ldrh .r7 .fp 618 .off, .op2 .add .r8 .r2 .r3 .id, .op1 (.lsr 1) .r8 .r8, .op2 .sub .r8 .r8 .r1 .id,
  .op2 .sub .r8 .r8 .r7 .id, .op2 .add .r9 .r4 .r5 .id, .op2 .sub .r9 .r9 .r1 (.lsl 1), .op2 .sub .r9 .r9 .r7 (.lsl 7),
  .op1 (.lsr 3) .r9 .r9, .op2 .sub .r9 .r9 .r8 .id, .op2 .mul .r9 .r9 .lr .id, .op2 .sub .r8 .r8 .r9 .id, .op2 .sub .r2 .r2 .r3 .id,
  .op1 (.lsr 1) .r2 .r2, .op2 .sub .r3 .r4 .r5 .id, .op1 (.lsr 2) .r3 .r3, .op2 .sub .r3 .r3 .r2 .id, .op2 .mul .r3 .r3 .lr .id,
  .op2 .add .r4 .r7 .r7 (.lsl 3), .op2 .add .r4 .r4 .r9 .id, .op2 .add .r4 .r4 .r4 (.lsl 3), .op2 .add .r4 .r4 .r8 .id,
  .op2 .add .r4 .r4 .r4 (.lsl 3), .op2 .add .r4 .r4 .r1 .id, .op2 .sub .r4 .r6 .r4 .id, .op2 .mul .r4 .r4 .lr .id,
  .op2 .sub .r4 .r4 .r2 .id, .op1 (.lsr 3) .r4 .r4, .op2 .sub .r4 .r4 .r3 .id, .op2 .mul .r5 .r4 .ip .id, .op2 .sub .r6 .r3 .r4 .id,
  .op2 .sub .r3 .r2 .r6 .id, .op2 .sub .r3 .r3 .r5 .id, .strh .r1 .r0 106 .off, .strh .r3 .r0 234 .off, .strh .r8 .r0 362 .off,
  .strh .r6 .r0 490 .off, .strh .r9 .r0 618 .off, .strh .r5 .r0 746 .off, .strh .r7 .r0 874 .off, .ldrh .r1 .sp 108 .off,
  .ldrh .r2 .sp 364 .off, .ldrh .r3 .sp 620 .off, .ldrh .r4 .sp 876 .off, .ldrh .r5 .fp 108 .off, .ldrh .r6 .fp 364 .off,
  .ldrh .r7 .fp 620 .off, .op2 .add .r8 .r2 .r3 .id, .op1 (.lsr 1) .r8 .r8, .op2 .sub .r8 .r8 .r1 .id, .op2 .sub .r8 .r8 .r7 .id,
  .op2 .add .r9 .r4 .r5 .id, .op2 .sub .r9 .r9 .r1 (.lsl 1), .op2 .sub .r9 .r9 .r7 (.lsl 7), .op1 (.lsr 3) .r9 .r9,
  .op2 .sub .r9 .r9 .r8 .id, .op2 .mul .r9 .r9 .lr .id, .op2 .sub .r8 .r8 .r9 .id, .op2 .sub .r2 .r2 .r3 .id, .op1 (.lsr 1) .r2 .r2,
  .op2 .sub .r3 .r4 .r5 .id, .op1 (.lsr 2) .r3 .r3, .op2 .sub .r3 .r3 .r2 .id, .op2 .mul .r3 .r3 .lr .id, .op2 .add .r4 .r7 .r7 (.lsl 3),
  .op2 .add .r4 .r4 .r9 .id, .op2 .add .r4 .r4 .r4 (.lsl 3), .op2 .add .r4 .r4 .r8 .id, .op2 .add .r4 .r4 .r4 (.lsl 3),
  .op2 .add .r4 .r4 .r1 .id, .op2 .sub .r4 .r6 .r4 .id]

/-- mult_toom4_256_16.s:5852-5971 -/
def polymul_asm_46 : List Ins := [
  .op2 .mul .r4 .r4 .lr .id, .op2 .sub .r4 .r4 .r2 .id, .op1 (.lsr 3) .r4 .r4, .op2 .sub .r4 .r4 .r3 .id, .op2 .mul .r5 .r4 .ip .id,
  .op2 .sub .r6 .r3 .r4 .id, .op2 .sub .r3 .r2 .r6 .id, .op2 .sub .r3 .r3 .r5 .id, .strh .r1 .r0 108 .off, .strh .r3 .r0 236 .off,
  .strh .r8 .r0 364 .off, .strh .r6 .r0 492 .off, .strh .r9 .r0 620 .off, .strh .r5 .r0 748 .off, .strh .r7 .r0 876 .off,
  .ldrh .r1 .sp 110 .off, .ldrh .r2 .sp 366 .off, .ldrh .r3 .sp 622 .off, .ldrh .r4 .sp 878 .off, .ldrh .r5 .fp 110 .off,
  .ldrh .r6 .fp 366 .off, .ldrh .r7 .fp 622 .off, .op2 .add .r8 .r2 .r3 .id, .op1 (.lsr 1) .r8 .r8, .op2 .sub .r8 .r8 .r1 .id,
  .op2 .sub .r8 .r8 .r7 .id, .op2 .add .r9 .r4 .r5 .id, .op2 .sub .r9 .r9 .r1 (.lsl 1), .op2 .sub .r9 .r9 .r7 (.lsl 7),
  .op1 (.lsr 3) .r9 .r9, .op2 .sub .r9 .r9 .r8 .id, .op2 .mul .r9 .r9 .lr .id, .op2 .sub .r8 .r8 .r9 .id, .op2 .sub .r2 .r2 .r3 .id,
  .op1 (.lsr 1) .r2 .r2, .op2 .sub .r3 .r4 .r5 .id, .op1 (.lsr 2) .r3 .r3, .op2 .sub .r3 .r3 .r2 .id, .op2 .mul .r3 .r3 .lr .id,
  .op2 .add .r4 .r7 .r7 (.lsl 3), .op2 .add .r4 .r4 .r9 .id, .op2 .add .r4 .r4 .r4 (.lsl 3), .op2 .add .r4 .r4 .r8 .id,
  .op2 .add .r4 .r4 .r4 (.lsl 3), .op2 .add .r4 .r4 .r1 .id, .op2 .sub .r4 .r6 .r4 .id, .op2 .mul .r4 .r4 .lr .id,
  .op2 .sub .r4 .r4 .r2 .id, .op1 (.lsr 3) .r4 .r4, .op2 .sub .r4 .r4 .r3 .id, .op2 .mul .r5 .r4 .ip .id, .op2 .sub .r6 .r3 .r4 .id,
  .op2 .sub .r3 .r2 .r6 .id, .op2 .sub .r3 .r3 .r5 .id, .strh .r1 .r0 110 .off, .strh .r3 .r0 238 .off, .strh .r8 .r0 366 .off,
  .strh .r6 .r0 494 .off, .strh .r9 .r0 622 .off, .strh .r5 .r0 750 .off, .strh .r7 .r0 878 .off, .ldrh .r1 .sp 112 .off,
  .ldrh .r2 .sp 368 .off, .ldrh .r3 .sp 624 .off, .ldrh .r4 .sp 880 .off, .ldrh .r5 .fp 112 .off, .ldrh .r6 .fp 368 .off,
  .ldrh .r7 .fp 624 .off, .op2 .add .r8 .r2 .r3 .id, .op1 (.lsr 1) .r8 .r8, .op2 .sub .r8 .r8 .r1 .id, .op2 .sub .r8 .r8 .r7 .id,
  .op2 .add .r9 .r4 .r5 .id, .op2 .sub .r9 .r9 .r1 (.lsl 1), .op2 .sub .r9 .r9 .r7 (.lsl 7), .op1 (.lsr 3) .r9 .r9,
  .op2 .sub .r9 .r9 .r8 .id, .op2 .mul .r9 .r9 .lr .id, .op2 .sub .r8 .r8 .r9 .id, .op2 .sub .r2 .r2 .r3 .id, .op1 (.lsr 1) .r2 .r2,
  .op2 .sub .r3 .r4 .r5 .id, .op1 (.lsr 2) .r3 .r3, .op2 .sub .r3 .r3 .r2 .id, .op2 .mul .r3 .r3 .lr .id, .op2 .add .r4 .r7 .r7 (.lsl 3),
  .op2 .add .r4 .r4 .r9 .id, .op2 .add .r4 .r4 .r4 (.lsl 3), .op2 .add .r4 .r4 .r8 .id, .op2 .add .r4 .r4 .r4 (.lsl 3),
  .op2 .add .r4 .r4 .r1 .id, .op2 .sub .r4 .r6 .r4 .id, .op2 .mul .r4 .r4 .lr .id, .op2 .sub .r4 .r4 .r2 .id, .op1 (.lsr 3) .r4 .r4,
  .op2 .sub .r4 .r4 .r3 .id, .op2 .mul .r5 .r4 .ip .id, .op2 .sub .r6 .r3 .r4 .id, .op2 .sub .r3 .r2 .r6 .id, .op2 .sub .r3 .r3 .r5 .id,
  .strh .r1 .r0 112 .off, .strh .r3 .r0 240 .off, .strh .r8 .r0 368 .off, .strh .r6 .r0 496 .off, .strh .r9 .r0 624 .off,
  .strh .r5 .r0 752 .off, .strh .r7 .r0 880 .off, .ldrh .r1 .sp 114 .off, .ldrh .r2 .sp 370 .off, .ldrh .r3 .sp 626 .off,
  .ldrh .r4 .sp 882 .off, .ldrh .r5 .fp 114 .off, .ldrh .r6 .fp 370 .off, .ldrh .r7 .fp 626 .off, .op2 .add .r8 .r2 .r3 .id,
  .op1 (.lsr 1) .r8 .r8, .op2 .sub .r8 .r8 .r1 .id, .op2 .sub .r8 .r8 .r7 .id, .op2 .add .r9 .r4 .r5 .id, .op2 .sub .r9 .r9 .r1 (.lsl 1)]

/-- mult_toom4_256_16.s:5972-6091 -/
def polymul_asm_47 : List Ins := [
  .op2 .sub .r9 .r9 .r7 (.lsl 7), .op1 (.lsr 3) .r9 .r9, .op2 .sub .r9 .r9 .r8 .id, .op2 .mul .r9 .r9 .lr .id, .op2 .sub .r8 .r8 .r9 .id,
  .op2 .sub .r2 .r2 .r3 .id, .op1 (.lsr 1) .r2 .r2, .op2 .sub .r3 .r4 .r5 .id, .op1 (.lsr 2) .r3 .r3, .op2 .sub .r3 .r3 .r2 .id,
  .op2 .mul .r3 .r3 .lr .id, .op2 .add .r4 .r7 .r7 (.lsl 3), .op2 .add .r4 .r4 .r9 .id, .op2 .add .r4 .r4 .r4 (.lsl 3),
  .op2 .add .r4 .r4 .r8 .id, .op2 .add .r4 .r4 .r4 (.lsl 3), .op2 .add .r4 .r4 .r1 .id, .op2 .sub .r4 .r6 .r4 .id,
  .op2 .mul .r4 .r4 .lr .id, .op2 .sub .r4 .r4 .r2 .id, .op1 (.lsr 3) .r4 .r4, .op2 .sub .r4 .r4 .r3 .id, .op2 .mul .r5 .r4 .ip .id,
  .op2 .sub .r6 .r3 .r4 .id, .op2 .sub .r3 .r2 .r6 .id, .op2 .sub .r3 .r3 .r5 .id, .strh .r1 .r0 114 .off, .strh .r3 .r0 242 .off,
  .strh .r8 .r0 370 .off, .strh .r6 .r0 498 .off, .strh .r9 .r0 626 .off, .strh .r5 .r0 754 .off, .strh .r7 .r0 882 .off,
  .ldrh .r1 .sp 116 .off, .ldrh .r2 .sp 372 .off, .ldrh .r3 .sp 628 .off, .ldrh .r4 .sp 884 .off, .ldrh .r5 .fp 116 .off,
  .ldrh .r6 .fp 372 .off, .ldrh .r7 .fp 628 .off, .op2 .add .r8 .r2 .r3 .id, .op1 (.lsr 1) .r8 .r8, .op2 .sub .r8 .r8 .r1 .id,
  .op2 .sub .r8 .r8 .r7 .id, .op2 .add .r9 .r4 .r5 .id, .op2 .sub .r9 .r9 .r1 (.lsl 1), .op2 .sub .r9 .r9 .r7 (.lsl 7),
  .op1 (.lsr 3) .r9 .r9, .op2 .sub .r9 .r9 .r8 .id, .op2 .mul .r9 .r9 .lr .id, .op2 .sub .r8 .r8 .r9 .id, .op2 .sub .r2 .r2 .r3 .id,
  .op1 (.lsr 1) .r2 .r2, .op2 .sub .r3 .r4 .r5 .id, .op1 (.lsr 2) .r3 .r3, .op2 .sub .r3 .r3 .r2 .id, .op2 .mul .r3 .r3 .lr .id,
  .op2 .add .r4 .r7 .r7 (.lsl 3), .op2 .add .r4 .r4 .r9 .id, .op2 .add .r4 .r4 .r4 (.lsl 3), .op2 .add .r4 .r4 .r8 .id,
  .op2 .add .r4 .r4 .r4 (.lsl 3), .op2 .add .r4 .r4 .r1 .id, .op2 .sub .r4 .r6 .r4 .id, .op2 .mul .r4 .r4 .lr .id,
  .op2 .sub .r4 .r4 .r2 .id, .op1 (.lsr 3) .r4 .r4, .op2 .sub .r4 .r4 .r3 .id, .op2 .mul .r5 .r4 .ip .id, .op2 .sub .r6 .r3 .r4 .id,
  .op2 .sub .r3 .r2 .r6 .id, .op2 .sub .r3 .r3 .r5 .id, .strh .r1 .r0 116 .off, .strh .r3 .r0 244 .off, .strh .r8 .r0 372 .off,
  .strh .r6 .r0 500 .off, .strh .r9 .r0 628 .off, .strh .r5 .r0 756 .off, .strh .r7 .r0 884 .off, .ldrh .r1 .sp 118 .off,
  .ldrh .r2 .sp 374 .off, .ldrh .r3 .sp 630 .off, .ldrh .r4 .sp 886 .off, .ldrh .r5 .fp 118 .off, .ldrh .r6 .fp 374 .off,
  .ldrh .r7 .fp 630 .off, .op2 .add .r8 .r2 .r3 .id, .op1 (.lsr 1) .r8 .r8, .op2 .sub .r8 .r8 .r1 .id, .op2 .sub .r8 .r8 .r7 .id,
  .op2 .add .r9 .r4 .r5 .id, .op2 .sub .r9 .r9 .r1 (.lsl 1), .op2 .sub .r9 .r9 .r7 (.lsl 7), .op1 (.lsr 3) .r9 .r9,
  .op2 .sub .r9 .r9 .r8 .id, .op2 .mul .r9 .r9 .lr .id, .op2 .sub .r8 .r8 .r9 .id, .op2 .sub .r2 .r2 .r3 .id, .op1 (.lsr 1) .r2 .r2,
  .op2 .sub .r3 .r4 .r5 .id, .op1 (.lsr 2) .r3 .r3, .op2 .sub .r3 .r3 .r2 .id, .op2 .mul .r3 .r3 .lr .id, .op2 .add .r4 .r7 .r7 (.lsl 3),
  .op2 .add .r4 .r4 .r9 .id, .op2 .add .r4 .r4 .r4 (.lsl 3), .op2 .add .r4 .r4 .r8 .id, .op2 .add .r4 .r4 .r4 (.lsl 3),
  .op2 .add .r4 .r4 .r1 .id, .op2 .sub .r4 .r6 .r4 .id, .op2 .mul .r4 .r4 .lr .id, .op2 .sub .r4 .r4 .r2 .id, .op1 (.lsr 3) .r4 .r4,
  .op2 .sub .r4 .r4 .r3 .id, .op2 .mul .r5 .r4 .ip .id, .op2 .sub .r6 .r3 .r4 .id, .op2 .sub .r3 .r2 .r6 .id, .op2 .sub .r3 .r3 .r5 .id,
  .strh .r1 .r0 118 .off, .strh .r3 .r0 246 .off]

/-- mult_toom4_256_16.s:6092-6211 -/
def polymul_asm_48 : List Ins := [
  .strh .r8 .r0 374 .off, .strh .r6 .r0 502 .off, .strh .r9 .r0 630 .off, .strh .r5 .r0 758 .off, .strh .r7 .r0 886 .off,
  .ldrh .r1 .sp 120 .off, .ldrh .r2 .sp 376 .off, .ldrh .r3 .sp 632 .off, .ldrh .r4 .sp 888 .off, .ldrh .r5 .fp 120 .off,
  .ldrh .r6 .fp 376 .off, .ldrh .r7 .fp 632 .off, .op2 .add .r8 .r2 .r3 .id, .op1 (.lsr 1) .r8 .r8, .op2 .sub .r8 .r8 .r1 .id,
  .op2 .sub .r8 .r8 .r7 .id, .op2 .add .r9 .r4 .r5 .id, .op2 .sub .r9 .r9 .r1 (.lsl 1), .op2 .sub .r9 .r9 .r7 (.lsl 7),
  .op1 (.lsr 3) .r9 .r9, .op2 .sub .r9 .r9 .r8 .id, .op2 .mul .r9 .r9 .lr .id, .op2 .sub .r8 .r8 .r9 .id, .op2 .sub .r2 .r2 .r3 .id,
  .op1 (.lsr 1) .r2 .r2, .op2 .sub .r3 .r4 .r5 .id, .op1 (.lsr 2) .r3 .r3, .op2 .sub .r3 .r3 .r2 .id, .op2 .mul .r3 .r3 .lr .id,
  .op2 .add .r4 .r7 .r7 (.lsl 3), .op2 .add .r4 .r4 .r9 .id, .op2 .add .r4 .r4 .r4 (.lsl 3), .op2 .add .r4 .r4 .r8 .id,
  .op2 .add .r4 .r4 .r4 (.lsl 3), .op2 .add .r4 .r4 .r1 .id, .op2 .sub .r4 .r6 .r4 .id, .op2 .mul .r4 .r4 .lr .id,
  .op2 .sub .r4 .r4 .r2 .id, .op1 (.lsr 3) .r4 .r4, .op2 .sub .r4 .r4 .r3 .id, .op2 .mul .r5 .r4 .ip .id, .op2 .sub .r6 .r3 .r4 .id,
  .op2 .sub .r3 .r2 .r6 .id, .op2 .sub .r3 .r3 .r5 .id, .strh .r1 .r0 120 .off, .strh .r3 .r0 248 .off, .strh .r8 .r0 376 .off,
  .strh .r6 .r0 504 .off, .strh .r9 .r0 632 .off, .strh .r5 .r0 760 .off, .strh .r7 .r0 888 .off, .ldrh .r1 .sp 122 .off,
  .ldrh .r2 .sp 378 .off, .ldrh .r3 .sp 634 .off, .ldrh .r4 .sp 890 .off, .ldrh .r5 .fp 122 .off, .ldrh .r6 .fp 378 .off,
  .ldrh .r7 .fp 634 .off, .op2 .add .r8 .r2 .r3 .id, .op1 (.lsr 1) .r8 .r8, .op2 .sub .r8 .r8 .r1 .id, .op2 .sub .r8 .r8 .r7 .id,
  .op2 .add .r9 .r4 .r5 .id, .op2 .sub .r9 .r9 .r1 (.lsl 1), .op2 .sub .r9 .r9 .r7 (.lsl 7), .op1 (.lsr 3) .r9 .r9,
  .op2 .sub .r9 .r9 .r8 .id, .op2 .mul .r9 .r9 .lr .id, .op2 .sub .r8 .r8 .r9 .id, .op2 .sub .r2 .r2 .r3 .id, .op1 (.lsr 1) .r2 .r2,
  .op2 .sub .r3 .r4 .r5 .id, .op1 (.lsr 2) .r3 .r3, .op2 .sub .r3 .r3 .r2 .id, .op2 .mul .r3 .r3 .lr .id, .op2 .add .r4 .r7 .r7 (.lsl 3),
  .op2 .add .r4 .r4 .r9 .id, .op2 .add .r4 .r4 .r4 (.lsl 3), .op2 .add .r4 .r4 .r8 .id, .op2 .add .r4 .r4 .r4 (.lsl 3),
  .op2 .add .r4 .r4 .r1 .id, .op2 .sub .r4 .r6 .r4 .id, .op2 .mul .r4 .r4 .lr .id, .op2 .sub .r4 .r4 .r2 .id, .op1 (.lsr 3) .r4 .r4,
  .op2 .sub .r4 .r4 .r3 .id, .op2 .mul .r5 .r4 .ip .id, .op2 .sub .r6 .r3 .r4 .id, .op2 .sub .r3 .r2 .r6 .id, .op2 .sub .r3 .r3 .r5 .id,
  .strh .r1 .r0 122 .off, .strh .r3 .r0 250 .off, .strh .r8 .r0 378 .off, .strh .r6 .r0 506 .off, .strh .r9 .r0 634 .off,
  .strh .r5 .r0 762 .off, .strh .r7 .r0 890 .off, .ldrh .r1 .sp 124 .off, .ldrh .r2 .sp 380 .off, .ldrh .r3 .sp 636 .off,
  .ldrh .r4 .sp 892 .off, .ldrh .r5 .fp 124 .off, .ldrh .r6 .fp 380 .off, .ldrh .r7 .fp 636 .off, .op2 .add .r8 .r2 .r3 .id,
  .op1 (.lsr 1) .r8 .r8, .op2 .sub .r8 .r8 .r1 .id, .op2 .sub .r8 .r8 .r7 .id, .op2 .add .r9 .r4 .r5 .id, .op2 .sub .r9 .r9 .r1 (.lsl 1),
  .op2 .sub .r9 .r9 .r7 (.lsl 7), .op1 (.lsr 3) .r9 .r9, .op2 .sub .r9 .r9 .r8 .id, .op2 .mul .r9 .r9 .lr .id, .op2 .sub .r8 .r8 .r9 .id,
  .op2 .sub .r2 .r2 .r3 .id, .op1 (.lsr 1) .r2 .r2, .op2 .sub .r3 .r4 .r5 .id, .op1 (.lsr 2) .r3 .r3, .op2 .sub .r3 .r3 .r2 .id]

/-- mult_toom4_256_16.s:6212-6331 -/
def polymul_asm_49 : List Ins := [
  .op2 .mul .r3 .r3 .lr .id, .op2 .add .r4 .r7 .r7 (.lsl 3), .op2 .add .r4 .r4 .r9 .id, .op2 .add .r4 .r4 .r4 (.lsl 3),
  .op2 .add .r4 .r4 .r8 .id, .op2 .add .r4 .r4 .r4 (.lsl 3), .op2 .add .r4 .r4 .r1 .id, .op2 .sub .r4 .r6 .r4 .id,
  .op2 .mul .r4 .r4 .lr .id, .op2 .sub .r4 .r4 .r2 .id, .op1 (.lsr 3) .r4 .r4, .op2 .sub .r4 .r4 .r3 .id, .op2 .mul .r5 .r4 .ip .id,
  .op2 .sub .r6 .r3 .r4 .id, .op2 .sub .r3 .r2 .r6 .id, .op2 .sub .r3 .r3 .r5 .id, .strh .r1 .r0 124 .off, .strh .r3 .r0 252 .off,
  .strh .r8 .r0 380 .off, .strh .r6 .r0 508 .off, .strh .r9 .r0 636 .off, .strh .r5 .r0 764 .off, .strh .r7 .r0 892 .off,
  .ldrh .r1 .sp 126 .off, .ldrh .r2 .sp 382 .off, .ldrh .r3 .sp 638 .off, .ldrh .r4 .sp 894 .off, .ldrh .r5 .fp 126 .off,
  .ldrh .r6 .fp 382 .off, .ldrh .r7 .fp 638 .off, .op2 .add .r8 .r2 .r3 .id, .op1 (.lsr 1) .r8 .r8, .op2 .sub .r8 .r8 .r1 .id,
  .op2 .sub .r8 .r8 .r7 .id, .op2 .add .r9 .r4 .r5 .id, .op2 .sub .r9 .r9 .r1 (.lsl 1), .op2 .sub .r9 .r9 .r7 (.lsl 7),
  .op1 (.lsr 3) .r9 .r9, .op2 .sub .r9 .r9 .r8 .id, .op2 .mul .r9 .r9 .lr .id, .op2 .sub .r8 .r8 .r9 .id, .op2 .sub .r2 .r2 .r3 .id,
  .op1 (.lsr 1) .r2 .r2, .op2 .sub .r3 .r4 .r5 .id, .op1 (.lsr 2) .r3 .r3, .op2 .sub .r3 .r3 .r2 .id, .op2 .mul .r3 .r3 .lr .id,
  .op2 .add .r4 .r7 .r7 (.lsl 3), .op2 .add .r4 .r4 .r9 .id, .op2 .add .r4 .r4 .r4 (.lsl 3), .op2 .add .r4 .r4 .r8 .id,
  .op2 .add .r4 .r4 .r4 (.lsl 3), .op2 .add .r4 .r4 .r1 .id, .op2 .sub .r4 .r6 .r4 .id, .op2 .mul .r4 .r4 .lr .id,
  .op2 .sub .r4 .r4 .r2 .id, .op1 (.lsr 3) .r4 .r4, .op2 .sub .r4 .r4 .r3 .id, .op2 .mul .r5 .r4 .ip .id, .op2 .sub .r6 .r3 .r4 .id,
  .op2 .sub .r3 .r2 .r6 .id, .op2 .sub .r3 .r3 .r5 .id, .strh .r1 .r0 126 .off, .strh .r3 .r0 254 .off, .strh .r8 .r0 382 .off,
  .strh .r6 .r0 510 .off, .strh .r9 .r0 638 .off, .strh .r5 .r0 766 .off, .strh .r7 .r0 894 .off, .ldrh .r1 .sp 128 .off,
  .ldrh .r2 .sp 384 .off, .ldrh .r3 .sp 640 .off, .ldrh .r4 .sp 896 .off, .ldrh .r5 .fp 128 .off, .ldrh .r6 .fp 384 .off,
  .ldrh .r7 .fp 640 .off, .op2 .add .r8 .r2 .r3 .id, .op1 (.lsr 1) .r8 .r8, .op2 .sub .r8 .r8 .r1 .id, .op2 .sub .r8 .r8 .r7 .id,
  .op2 .add .r9 .r4 .r5 .id, .op2 .sub .r9 .r9 .r1 (.lsl 1), .op2 .sub .r9 .r9 .r7 (.lsl 7), .op1 (.lsr 3) .r9 .r9,
  .op2 .sub .r9 .r9 .r8 .id, .op2 .mul .r9 .r9 .lr .id, .op2 .sub .r8 .r8 .r9 .id, .op2 .sub .r2 .r2 .r3 .id, .op1 (.lsr 1) .r2 .r2,
  .op2 .sub .r3 .r4 .r5 .id, .op1 (.lsr 2) .r3 .r3, .op2 .sub .r3 .r3 .r2 .id, .op2 .mul .r3 .r3 .lr .id, .op2 .add .r4 .r7 .r7 (.lsl 3),
  .op2 .add .r4 .r4 .r9 .id, .op2 .add .r4 .r4 .r4 (.lsl 3), .op2 .add .r4 .r4 .r8 .id, .op2 .add .r4 .r4 .r4 (.lsl 3),
  .op2 .add .r4 .r4 .r1 .id, .op2 .sub .r4 .r6 .r4 .id, .op2 .mul .r4 .r4 .lr .id, .op2 .sub .r4 .r4 .r2 .id, .op1 (.lsr 3) .r4 .r4,
  .op2 .sub .r4 .r4 .r3 .id, .op2 .mul .r5 .r4 .ip .id, .op2 .sub .r6 .r3 .r4 .id, .op2 .sub .r3 .r2 .r6 .id, .op2 .sub .r3 .r3 .r5 .id,
  .ldrh .sl .r0 128 .off, .op2 .add .r1 .r1 .sl .id, .strh .r1 .r0 128 .off, .ldrh .sl .r0 256 .off, .op2 .add .r3 .r3 .sl .id,
  .strh .r3 .r0 256 .off, .ldrh .sl .r0 384 .off, .op2 .add .r8 .r8 .sl .id, .strh .r8 .r0 384 .off, .ldrh .sl .r0 512 .off,
  .op2 .add .r6 .r6 .sl .id, .strh .r6 .r0 512 .off]

/-- mult_toom4_256_16.s:6332-6451 -/
def polymul_asm_50 : List Ins := [
  .ldrh .sl .r0 640 .off, .op2 .add .r9 .r9 .sl .id, .strh .r9 .r0 640 .off, .ldrh .sl .r0 768 .off, .op2 .add .r5 .r5 .sl .id,
  .strh .r5 .r0 768 .off, .strh .r7 .r0 896 .off, .ldrh .r1 .sp 130 .off, .ldrh .r2 .sp 386 .off, .ldrh .r3 .sp 642 .off,
  .ldrh .r4 .sp 898 .off, .ldrh .r5 .fp 130 .off, .ldrh .r6 .fp 386 .off, .ldrh .r7 .fp 642 .off, .op2 .add .r8 .r2 .r3 .id,
  .op1 (.lsr 1) .r8 .r8, .op2 .sub .r8 .r8 .r1 .id, .op2 .sub .r8 .r8 .r7 .id, .op2 .add .r9 .r4 .r5 .id, .op2 .sub .r9 .r9 .r1 (.lsl 1),
  .op2 .sub .r9 .r9 .r7 (.lsl 7), .op1 (.lsr 3) .r9 .r9, .op2 .sub .r9 .r9 .r8 .id, .op2 .mul .r9 .r9 .lr .id, .op2 .sub .r8 .r8 .r9 .id,
  .op2 .sub .r2 .r2 .r3 .id, .op1 (.lsr 1) .r2 .r2, .op2 .sub .r3 .r4 .r5 .id, .op1 (.lsr 2) .r3 .r3, .op2 .sub .r3 .r3 .r2 .id,
  .op2 .mul .r3 .r3 .lr .id, .op2 .add .r4 .r7 .r7 (.lsl 3), .op2 .add .r4 .r4 .r9 .id, .op2 .add .r4 .r4 .r4 (.lsl 3),
  .op2 .add .r4 .r4 .r8 .id, .op2 .add .r4 .r4 .r4 (.lsl 3), .op2 .add .r4 .r4 .r1 .id, .op2 .sub .r4 .r6 .r4 .id,
  .op2 .mul .r4 .r4 .lr .id, .op2 .sub .r4 .r4 .r2 .id, .op1 (.lsr 3) .r4 .r4, .op2 .sub .r4 .r4 .r3 .id, .op2 .mul .r5 .r4 .ip .id,
  .op2 .sub .r6 .r3 .r4 .id, .op2 .sub .r3 .r2 .r6 .id, .op2 .sub .r3 .r3 .r5 .id, .ldrh .sl .r0 130 .off, .op2 .add .r1 .r1 .sl .id,
  .strh .r1 .r0 130 .off, .ldrh .sl .r0 258 .off, .op2 .add .r3 .r3 .sl .id, .strh .r3 .r0 258 .off, .ldrh .sl .r0 386 .off,
  .op2 .add .r8 .r8 .sl .id, .strh .r8 .r0 386 .off, .ldrh .sl .r0 514 .off, .op2 .add .r6 .r6 .sl .id, .strh .r6 .r0 514 .off,
  .ldrh .sl .r0 642 .off, .op2 .add .r9 .r9 .sl .id, .strh .r9 .r0 642 .off, .ldrh .sl .r0 770 .off, .op2 .add .r5 .r5 .sl .id,
  .strh .r5 .r0 770 .off, .strh .r7 .r0 898 .off, .ldrh .r1 .sp 132 .off, .ldrh .r2 .sp 388 .off, .ldrh .r3 .sp 644 .off,
  .ldrh .r4 .sp 900 .off, .ldrh .r5 .fp 132 .off, .ldrh .r6 .fp 388 .off, .ldrh .r7 .fp 644 .off, .op2 .add .r8 .r2 .r3 .id,
  .op1 (.lsr 1) .r8 .r8, .op2 .sub .r8 .r8 .r1 .id, .op2 .sub .r8 .r8 .r7 .id, .op2 .add .r9 .r4 .r5 .id, .op2 .sub .r9 .r9 .r1 (.lsl 1),
  .op2 .sub .r9 .r9 .r7 (.lsl 7), .op1 (.lsr 3) .r9 .r9, .op2 .sub .r9 .r9 .r8 .id, .op2 .mul .r9 .r9 .lr .id, .op2 .sub .r8 .r8 .r9 .id,
  .op2 .sub .r2 .r2 .r3 .id, .op1 (.lsr 1) .r2 .r2, .op2 .sub .r3 .r4 .r5 .id, .op1 (.lsr 2) .r3 .r3, .op2 .sub .r3 .r3 .r2 .id,
  .op2 .mul .r3 .r3 .lr .id, .op2 .add .r4 .r7 .r7 (.lsl 3), .op2 .add .r4 .r4 .r9 .id, .op2 .add .r4 .r4 .r4 (.lsl 3),
  .op2 .add .r4 .r4 .r8 .id, .op2 .add .r4 .r4 .r4 (.lsl 3), .op2 .add .r4 .r4 .r1 .id, .op2 .sub .r4 .r6 .r4 .id,
  .op2 .mul .r4 .r4 .lr .id, .op2 .sub .r4 .r4 .r2 .id, .op1 (.lsr 3) .r4 .r4, .op2 .sub .r4 .r4 .r3 .id, .op2 .mul .r5 .r4 .ip .id,
  .op2 .sub .r6 .r3 .r4 .id, .op2 .sub .r3 .r2 .r6 .id, .op2 .sub .r3 .r3 .r5 .id, .ldrh .sl .r0 132 .off, .op2 .add .r1 .r1 .sl .id,
  .strh .r1 .r0 132 .off, .ldrh .sl .r0 260 .off, .op2 .add .r3 .r3 .sl .id, .strh .r3 .r0 260 .off, .ldrh .sl .r0 388 .off,
  .op2 .add .r8 .r8 .sl .id, .strh .r8 .r0 388 .off, .ldrh .sl .r0 516 .off, .op2 .add .r6 .r6 .sl .id, .strh .r6 .r0 516 .off,
  .ldrh .sl .r0 644 .off, .op2 .add .r9 .r9 .sl .id, .strh .r9 .r0 644 .off, .ldrh .sl .r0 772 .off]

/-- mult_toom4_256_16.s:6452-6571 -/
def polymul_asm_51 : List Ins := [
  .op2 .add .r5 .r5 .sl .id, .strh .r5 .r0 772 .off, .strh .r7 .r0 900 .off, .ldrh .r1 .sp 134 .off, .ldrh .r2 .sp 390 .off,
  .ldrh .r3 .sp 646 .off, .ldrh .r4 .sp 902 .off, .ldrh .r5 .fp 134 .off, .ldrh .r6 .fp 390 .off, .ldrh .r7 .fp 646 .off,
  .op2 .add .r8 .r2 .r3 .id, .op1 (.lsr 1) .r8 .r8, .op2 .sub .r8 .r8 .r1 .id, .op2 .sub .r8 .r8 .r7 .id, .op2 .add .r9 .r4 .r5 .id,
  .op2 .sub .r9 .r9 .r1 (.lsl 1), .op2 .sub .r9 .r9 .r7 (.lsl 7), .op1 (.lsr 3) .r9 .r9, .op2 .sub .r9 .r9 .r8 .id,
  .op2 .mul .r9 .r9 .lr .id, .op2 .sub .r8 .r8 .r9 .id, .op2 .sub .r2 .r2 .r3 .id, .op1 (.lsr 1) .r2 .r2, .op2 .sub .r3 .r4 .r5 .id,
  .op1 (.lsr 2) .r3 .r3, .op2 .sub .r3 .r3 .r2 .id, .op2 .mul .r3 .r3 .lr .id, .op2 .add .r4 .r7 .r7 (.lsl 3), .op2 .add .r4 .r4 .r9 .id,
  .op2 .add .r4 .r4 .r4 (.lsl 3), .op2 .add .r4 .r4 .r8 .id, .op2 .add .r4 .r4 .r4 (.lsl 3), .op2 .add .r4 .r4 .r1 .id,
  .op2 .sub .r4 .r6 .r4 .id, .op2 .mul .r4 .r4 .lr .id, .op2 .sub .r4 .r4 .r2 .id, .op1 (.lsr 3) .r4 .r4, .op2 .sub .r4 .r4 .r3 .id,
  .op2 .mul .r5 .r4 .ip .id, .op2 .sub .r6 .r3 .r4 .id, .op2 .sub .r3 .r2 .r6 .id, .op2 .sub .r3 .r3 .r5 .id, .ldrh .sl .r0 134 .off,
  .op2 .add .r1 .r1 .sl .id, .strh .r1 .r0 134 .off, .ldrh .sl .r0 262 .off, .op2 .add .r3 .r3 .sl .id, .strh .r3 .r0 262 .off,
  .ldrh .sl .r0 390 .off, .op2 .add .r8 .r8 .sl .id, .strh .r8 .r0 390 .off, .ldrh .sl .r0 518 .off, .op2 .add .r6 .r6 .sl .id,
  .strh .r6 .r0 518 .off, .ldrh .sl .r0 646 .off, .op2 .add .r9 .r9 .sl .id, .strh .r9 .r0 646 .off, .ldrh .sl .r0 774 .off,
  .op2 .add .r5 .r5 .sl .id, .strh .r5 .r0 774 .off, .strh .r7 .r0 902 .off, .ldrh .r1 .sp 136 .off, .ldrh .r2 .sp 392 .off,
  .ldrh .r3 .sp 648 .off, .ldrh .r4 .sp 904 .off, .ldrh .r5 .fp 136 .off, .ldrh .r6 .fp 392 .off, .ldrh .r7 .fp 648 .off,
  .op2 .add .r8 .r2 .r3 .id, .op1 (.lsr 1) .r8 .r8, .op2 .sub .r8 .r8 .r1 .id, .op2 .sub .r8 .r8 .r7 .id, .op2 .add .r9 .r4 .r5 .id,
  .op2 .sub .r9 .r9 .r1 (.lsl 1), .op2 .sub .r9 .r9 .r7 (.lsl 7), .op1 (.lsr 3) .r9 .r9, .op2 .sub .r9 .r9 .r8 .id,
  .op2 .mul .r9 .r9 .lr .id, .op2 .sub .r8 .r8 .r9 .id, .op2 .sub .r2 .r2 .r3 .id, .op1 (.lsr 1) .r2 .r2, .op2 .sub .r3 .r4 .r5 .id,
  .op1 (.lsr 2) .r3 .r3, .op2 .sub .r3 .r3 .r2 .id, .op2 .mul .r3 .r3 .lr .id, .op2 .add .r4 .r7 .r7 (.lsl 3), .op2 .add .r4 .r4 .r9 .id,
  .op2 .add .r4 .r4 .r4 (.lsl 3), .op2 .add .r4 .r4 .r8 .id, .op2 .add .r4 .r4 .r4 (.lsl 3), .op2 .add .r4 .r4 .r1 .id,
  .op2 .sub .r4 .r6 .r4 .id, .op2 .mul .r4 .r4 .lr .id, .op2 .sub .r4 .r4 .r2 .id, .op1 (.lsr 3) .r4 .r4, .op2 .sub .r4 .r4 .r3 .id,
  .op2 .mul .r5 .r4 .ip .id, .op2 .sub .r6 .r3 .r4 .id, .op2 .sub .r3 .r2 .r6 .id, .op2 .sub .r3 .r3 .r5 .id, .ldrh .sl .r0 136 .off,
  .op2 .add .r1 .r1 .sl .id, .strh .r1 .r0 136 .off, .ldrh .sl .r0 264 .off, .op2 .add .r3 .r3 .sl .id, .strh .r3 .r0 264 .off,
  .ldrh .sl .r0 392 .off, .op2 .add .r8 .r8 .sl .id, .strh .r8 .r0 392 .off, .ldrh .sl .r0 520 .off, .op2 .add .r6 .r6 .sl .id,
  .strh .r6 .r0 520 .off, .ldrh .sl .r0 648 .off, .op2 .add .r9 .r9 .sl .id, .strh .r9 .r0 648 .off, .ldrh .sl .r0 776 .off,
  .op2 .add .r5 .r5 .sl .id, .strh .r5 .r0 776 .off, .strh .r7 .r0 904 .off, .ldrh .r1 .sp 138 .off]

/-- mult_toom4_256_16.s:6572-6691 -/
def polymul_asm_52 : List Ins := [
  .ldrh .r2 .sp 394 .off, .ldrh .r3 .sp 650 .off, .ldrh .r4 .sp 906 .off, .ldrh .r5 .fp 138 .off, .ldrh .r6 .fp 394 .off,
  .ldrh .r7 .fp 650 .off, .op2 .add .r8 .r2 .r3 .id, .op1 (.lsr 1) .r8 .r8, .op2 .sub .r8 .r8 .r1 .id, .op2 .sub .r8 .r8 .r7 .id,
  .op2 .add .r9 .r4 .r5 .id, .op2 .sub .r9 .r9 .r1 (.lsl 1), .op2 .sub .r9 .r9 .r7 (.lsl 7), .op1 (.lsr 3) .r9 .r9,
  .op2 .sub .r9 .r9 .r8 .id, .op2 .mul .r9 .r9 .lr .id, .op2 .sub .r8 .r8 .r9 .id, .op2 .sub .r2 .r2 .r3 .id, .op1 (.lsr 1) .r2 .r2,
  .op2 .sub .r3 .r4 .r5 .id, .op1 (.lsr 2) .r3 .r3, .op2 .sub .r3 .r3 .r2 .id, .op2 .mul .r3 .r3 .lr .id, .op2 .add .r4 .r7 .r7 (.lsl 3),
  .op2 .add .r4 .r4 .r9 .id, .op2 .add .r4 .r4 .r4 (.lsl 3), .op2 .add .r4 .r4 .r8 .id, .op2 .add .r4 .r4 .r4 (.lsl 3),
  .op2 .add .r4 .r4 .r1 .id, .op2 .sub .r4 .r6 .r4 .id, .op2 .mul .r4 .r4 .lr .id, .op2 .sub .r4 .r4 .r2 .id, .op1 (.lsr 3) .r4 .r4,
  .op2 .sub .r4 .r4 .r3 .id, .op2 .mul .r5 .r4 .ip .id, .op2 .sub .r6 .r3 .r4 .id, .op2 .sub .r3 .r2 .r6 .id, .op2 .sub .r3 .r3 .r5 .id,
  .ldrh .sl .r0 138 .off, .op2 .add .r1 .r1 .sl .id, .strh .r1 .r0 138 .off, .ldrh .sl .r0 266 .off, .op2 .add .r3 .r3 .sl .id,
  .strh .r3 .r0 266 .off, .ldrh .sl .r0 394 .off, .op2 .add .r8 .r8 .sl .id, .strh .r8 .r0 394 .off, .ldrh .sl .r0 522 .off,
  .op2 .add .r6 .r6 .sl .id, .strh .r6 .r0 522 .off, .ldrh .sl .r0 650 .off, .op2 .add .r9 .r9 .sl .id, .strh .r9 .r0 650 .off,
  .ldrh .sl .r0 778 .off, .op2 .add .r5 .r5 .sl .id, .strh .r5 .r0 778 .off, .strh .r7 .r0 906 .off, .ldrh .r1 .sp 140 .off,
  .ldrh .r2 .sp 396 .off, .ldrh .r3 .sp 652 .off, .ldrh .r4 .sp 908 .off, .ldrh .r5 .fp 140 .off, .ldrh .r6 .fp 396 .off,
  .ldrh .r7 .fp 652 .off, .op2 .add .r8 .r2 .r3 .id, .op1 (.lsr 1) .r8 .r8, .op2 .sub .r8 .r8 .r1 .id, .op2 .sub .r8 .r8 .r7 .id,
  .op2 .add .r9 .r4 .r5 .id, .op2 .sub .r9 .r9 .r1 (.lsl 1), .op2 .sub .r9 .r9 .r7 (.lsl 7), .op1 (.lsr 3) .r9 .r9,
  .op2 .sub .r9 .r9 .r8 .id, .op2 .mul .r9 .r9 .lr .id, .op2 .sub .r8 .r8 .r9 .id, .op2 .sub .r2 .r2 .r3 .id, .op1 (.lsr 1) .r2 .r2,
  .op2 .sub .r3 .r4 .r5 .id, .op1 (.lsr 2) .r3 .r3, .op2 .sub .r3 .r3 .r2 .id, .op2 .mul .r3 .r3 .lr .id, .op2 .add .r4 .r7 .r7 (.lsl 3),
  .op2 .add .r4 .r4 .r9 .id, .op2 .add .r4 .r4 .r4 (.lsl 3), .op2 .add .r4 .r4 .r8 .id, .op2 .add .r4 .r4 .r4 (.lsl 3),
  .op2 .add .r4 .r4 .r1 .id, .op2 .sub .r4 .r6 .r4 .id, .op2 .mul .r4 .r4 .lr .id, .op2 .sub .r4 .r4 .r2 .id, .op1 (.lsr 3) .r4 .r4,
  .op2 .sub .r4 .r4 .r3 .id, .op2 .mul .r5 .r4 .ip .id, .op2 .sub .r6 .r3 .r4 .id, .op2 .sub .r3 .r2 .r6 .id, .op2 .sub .r3 .r3 .r5 .id,
  .ldrh .sl .r0 140 .off, .op2 .add .r1 .r1 .sl .id, .strh .r1 .r0 140 .off, .ldrh .sl .r0 268 .off, .op2 .add .r3 .r3 .sl .id,
  .strh .r3 .r0 268 .off, .ldrh .sl .r0 396 .off, .op2 .add .r8 .r8 .sl .id, .strh .r8 .r0 396 .off, .ldrh .sl .r0 524 .off,
  .op2 .add .r6 .r6 .sl .id, .strh .r6 .r0 524 .off, .ldrh .sl .r0 652 .off, .op2 .add .r9 .r9 .sl .id, .strh .r9 .r0 652 .off,
  .ldrh .sl .r0 780 .off, .op2 .add .r5 .r5 .sl .id, .strh .r5 .r0 780 .off, .strh .r7 .r0 908 .off, .ldrh .r1 .sp 142 .off,
  .ldrh .r2 .sp 398 .off, .ldrh .r3 .sp 654 .off, .ldrh .r4 .sp 910 .off, .ldrh .r5 .fp 142 .off]

/-- mult_toom4_256_16.s:6692-6811 -/
def polymul_asm_53 : List Ins := [
  .ldrh .r6 .fp 398 .off, .ldrh .r7 .fp 654 .off, .op2 .add .r8 .r2 .r3 .id, .op1 (.lsr 1) .r8 .r8, .op2 .sub .r8 .r8 .r1 .id,
  .op2 .sub .r8 .r8 .r7 .id, .op2 .add .r9 .r4 .r5 .id, .op2 .sub .r9 .r9 .r1 (.lsl 1), .op2 .sub .r9 .r9 .r7 (.lsl 7),
  .op1 (.lsr 3) .r9 .r9, .op2 .sub .r9 .r9 .r8 .id, .op2 .mul .r9 .r9 .lr .id, .op2 .sub .r8 .r8 .r9 .id, .op2 .sub .r2 .r2 .r3 .id,
  .op1 (.lsr 1) .r2 .r2, .op2 .sub .r3 .r4 .r5 .id, .op1 (.lsr 2) .r3 .r3, .op2 .sub .r3 .r3 .r2 .id, .op2 .mul .r3 .r3 .lr .id,
  .op2 .add .r4 .r7 .r7 (.lsl 3), .op2 .add .r4 .r4 .r9 .id, .op2 .add .r4 .r4 .r4 (.lsl 3), .op2 .add .r4 .r4 .r8 .id,
  .op2 .add .r4 .r4 .r4 (.lsl 3), .op2 .add .r4 .r4 .r1 .id, .op2 .sub .r4 .r6 .r4 .id, .op2 .mul .r4 .r4 .lr .id,
  .op2 .sub .r4 .r4 .r2 .id, .op1 (.lsr 3) .r4 .r4, .op2 .sub .r4 .r4 .r3 .id, .op2 .mul .r5 .r4 .ip .id, .op2 .sub .r6 .r3 .r4 .id,
  .op2 .sub .r3 .r2 .r6 .id, .op2 .sub .r3 .r3 .r5 .id, .ldrh .sl .r0 142 .off, .op2 .add .r1 .r1 .sl .id, .strh .r1 .r0 142 .off,
  .ldrh .sl .r0 270 .off, .op2 .add .r3 .r3 .sl .id, .strh .r3 .r0 270 .off, .ldrh .sl .r0 398 .off, .op2 .add .r8 .r8 .sl .id,
  .strh .r8 .r0 398 .off, .ldrh .sl .r0 526 .off, .op2 .add .r6 .r6 .sl .id, .strh .r6 .r0 526 .off, .ldrh .sl .r0 654 .off,
  .op2 .add .r9 .r9 .sl .id, .strh .r9 .r0 654 .off, .ldrh .sl .r0 782 .off, .op2 .add .r5 .r5 .sl .id, .strh .r5 .r0 782 .off,
  .strh .r7 .r0 910 .off, .ldrh .r1 .sp 144 .off, .ldrh .r2 .sp 400 .off, .ldrh .r3 .sp 656 .off, .ldrh .r4 .sp 912 .off,
  .ldrh .r5 .fp 144 .off, .ldrh .r6 .fp 400 .off, .ldrh .r7 .fp 656 .off, .op2 .add .r8 .r2 .r3 .id, .op1 (.lsr 1) .r8 .r8,
  .op2 .sub .r8 .r8 .r1 .id, .op2 .sub .r8 .r8 .r7 .id, .op2 .add .r9 .r4 .r5 .id, .op2 .sub .r9 .r9 .r1 (.lsl 1),
  .op2 .sub .r9 .r9 .r7 (.lsl 7), .op1 (.lsr 3) .r9 .r9, .op2 .sub .r9 .r9 .r8 .id, .op2 .mul .r9 .r9 .lr .id, .op2 .sub .r8 .r8 .r9 .id,
  .op2 .sub .r2 .r2 .r3 .id, .op1 (.lsr 1) .r2 .r2, .op2 .sub .r3 .r4 .r5 .id, .op1 (.lsr 2) .r3 .r3, .op2 .sub .r3 .r3 .r2 .id,
  .op2 .mul .r3 .r3 .lr .id, .op2 .add .r4 .r7 .r7 (.lsl 3), .op2 .add .r4 .r4 .r9 .id, .op2 .add .r4 .r4 .r4 (.lsl 3),
  .op2 .add .r4 .r4 .r8 .id, .op2 .add .r4 .r4 .r4 (.lsl 3), .op2 .add .r4 .r4 .r1 .id, .op2 .sub .r4 .r6 .r4 .id,
  .op2 .mul .r4 .r4 .lr .id, .op2 .sub .r4 .r4 .r2 .id, .op1 (.lsr 3) .r4 .r4, .op2 .sub .r4 .r4 .r3 .id, .op2 .mul .r5 .r4 .ip .id,
  .op2 .sub .r6 .r3 .r4 .id, .op2 .sub .r3 .r2 .r6 .id, .op2 .sub .r3 .r3 .r5 .id, .ldrh .sl .r0 144 .off, .op2 .add .r1 .r1 .sl .id,
  .strh .r1 .r0 144 .off, .ldrh .sl .r0 272 .off, .op2 .add .r3 .r3 .sl .id, .strh .r3 .r0 272 .off, .ldrh .sl .r0 400 .off,
  .op2 .add .r8 .r8 .sl .id, .strh .r8 .r0 400 .off, .ldrh .sl .r0 528 .off, .op2 .add .r6 .r6 .sl .id, .strh .r6 .r0 528 .off,
  .ldrh .sl .r0 656 .off, .op2 .add .r9 .r9 .sl .id, .strh .r9 .r0 656 .off, .ldrh .sl .r0 784 .off, .op2 .add .r5 .r5 .sl .id,
  .strh .r5 .r0 784 .off, .strh .r7 .r0 912 .off, .ldrh .r1 .sp 146 .off, .ldrh .r2 .sp 402 .off, .ldrh .r3 .sp 658 .off,
  .ldrh .r4 .sp 914 .off, .ldrh .r5 .fp 146 .off, .ldrh .r6 .fp 402 .off, .ldrh .r7 .fp 658 .off, .op2 .add .r8 .r2 .r3 .id,
  .op1 (.lsr 1) .r8 .r8]

/-- mult_toom4_256_16.s:6812-6931 -/
def polymul_asm_54 : List Ins := [
  .op2 .sub .r8 .r8 .r1 .id, .op2 .sub .r8 .r8 .r7 .id, .op2 .add .r9 .r4 .r5 .id, .op2 .sub .r9 .r9 .r1 (.lsl 1),
  .op2 .sub .r9 .r9 .r7 (.lsl 7), .op1 (.lsr 3) .r9 .r9, .op2 .sub .r9 .r9 .r8 .id, .op2 .mul .r9 .r9 .lr .id, .op2 .sub .r8 .r8 .r9 .id,
  .op2 .sub .r2 .r2 .r3 .id, .op1 (.lsr 1) .r2 .r2, .op2 .sub .r3 .r4 .r5 .id, .op1 (.lsr 2) .r3 .r3, .op2 .sub .r3 .r3 .r2 .id,
  .op2 .mul .r3 .r3 .lr .id, .op2 .add .r4 .r7 .r7 (.lsl 3), .op2 .add .r4 .r4 .r9 .id, .op2 .add .r4 .r4 .r4 (.lsl 3),
  .op2 .add .r4 .r4 .r8 .id, .op2 .add .r4 .r4 .r4 (.lsl 3), .op2 .add .r4 .r4 .r1 .id, .op2 .sub .r4 .r6 .r4 .id,
  .op2 .mul .r4 .r4 .lr .id, .op2 .sub .r4 .r4 .r2 .id, .op1 (.lsr 3) .r4 .r4, .op2 .sub .r4 .r4 .r3 .id, .op2 .mul .r5 .r4 .ip .id,
  .op2 .sub .r6 .r3 .r4 .id, .op2 .sub .r3 .r2 .r6 .id, .op2 .sub .r3 .r3 .r5 .id, .ldrh .sl .r0 146 .off, .op2 .add .r1 .r1 .sl .id,
  .strh .r1 .r0 146 .off, .ldrh .sl .r0 274 .off, .op2 .add .r3 .r3 .sl .id, .strh .r3 .r0 274 .off, .ldrh .sl .r0 402 .off,
  .op2 .add .r8 .r8 .sl .id, .strh .r8 .r0 402 .off, .ldrh .sl .r0 530 .off, .op2 .add .r6 .r6 .sl .id, .strh .r6 .r0 530 .off,
  .ldrh .sl .r0 658 .off, .op2 .add .r9 .r9 .sl .id, .strh .r9 .r0 658 .off, .ldrh .sl .r0 786 .off, .op2 .add .r5 .r5 .sl .id,
  .strh .r5 .r0 786 .off, .strh .r7 .r0 914 .off, .ldrh .r1 .sp 148 .off, .ldrh .r2 .sp 404 .off, .ldrh .r3 .sp 660 .off,
  .ldrh .r4 .sp 916 .off, .ldrh .r5 .fp 148 .off, .ldrh .r6 .fp 404 .off, .ldrh .r7 .fp 660 .off, .op2 .add .r8 .r2 .r3 .id,
  .op1 (.lsr 1) .r8 .r8, .op2 .sub .r8 .r8 .r1 .id, .op2 .sub .r8 .r8 .r7 .id, .op2 .add .r9 .r4 .r5 .id, .op2 .sub .r9 .r9 .r1 (.lsl 1),
  .op2 .sub .r9 .r9 .r7 (.lsl 7), .op1 (.lsr 3) .r9 .r9, .op2 .sub .r9 .r9 .r8 .id, .op2 .mul .r9 .r9 .lr .id, .op2 .sub .r8 .r8 .r9 .id,
  .op2 .sub .r2 .r2 .r3 .id, .op1 (.lsr 1) .r2 .r2, .op2 .sub .r3 .r4 .r5 .id, .op1 (.lsr 2) .r3 .r3, .op2 .sub .r3 .r3 .r2 .id,
  .op2 .mul .r3 .r3 .lr .id, .op2 .add .r4 .r7 .r7 (.lsl 3), .op2 .add .r4 .r4 .r9 .id, .op2 .add .r4 .r4 .r4 (.lsl 3),
  .op2 .add .r4 .r4 .r8 .id, .op2 .add .r4 .r4 .r4 (.lsl 3), .op2 .add .r4 .r4 .r1 .id, .op2 .sub .r4 .r6 .r4 .id,
  .op2 .mul .r4 .r4 .lr .id, .op2 .sub .r4 .r4 .r2 .id, .op1 (.lsr 3) .r4 .r4, .op2 .sub .r4 .r4 .r3 .id, .op2 .mul .r5 .r4 .ip .id,
  .op2 .sub .r6 .r3 .r4 .id, .op2 .sub .r3 .r2 .r6 .id, .op2 .sub .r3 .r3 .r5 .id, .ldrh .sl .r0 148 .off, .op2 .add .r1 .r1 .sl .id,
  .strh .r1 .r0 148 .off, .ldrh .sl .r0 276 .off, .op2 .add .r3 .r3 .sl .id, .strh .r3 .r0 276 .off, .ldrh .sl .r0 404 .off,
  .op2 .add .r8 .r8 .sl .id, .strh .r8 .r0 404 .off, .ldrh .sl .r0 532 .off, .op2 .add .r6 .r6 .sl .id, .strh .r6 .r0 532 .off,
  .ldrh .sl .r0 660 .off, .op2 .add .r9 .r9 .sl .id, .strh .r9 .r0 660 .off, .ldrh .sl .r0 788 .off, .op2 .add .r5 .r5 .sl .id,
  .strh .r5 .r0 788 .off, .strh .r7 .r0 916 .off, .ldrh .r1 .sp 150 .off, .ldrh .r2 .sp 406 .off, .ldrh .r3 .sp 662 .off,
  .ldrh .r4 .sp 918 .off, .ldrh .r5 .fp 150 .off, .ldrh .r6 .fp 406 .off, .ldrh .r7 .fp 662 .off, .op2 .add .r8 .r2 .r3 .id,
  .op1 (.lsr 1) .r8 .r8, .op2 .sub .r8 .r8 .r1 .id, .op2 .sub .r8 .r8 .r7 .id, .op2 .add .r9 .r4 .r5 .id, .op2 .sub .r9 .r9 .r1 (.lsl 1)]

/-- mult_toom4_256_16.s:6932-7051 -/
def polymul_asm_55 : List Ins := [
  .op2 .sub .r9 .r9 .r7 (.lsl 7), .op1 (.lsr 3) .r9 .r9, .op2 .sub .r9 .r9 .r8 .id, .op2 .mul .r9 .r9 .lr .id, .op2 .sub .r8 .r8 .r9 .id,
  .op2 .sub .r2 .r2 .r3 .id, .op1 (.lsr 1) .r2 .r2, .op2 .sub .r3 .r4 .r5 .id, .op1 (.lsr 2) .r3 .r3, .op2 .sub .r3 .r3 .r2 .id,
  .op2 .mul .r3 .r3 .lr .id, .op2 .add .r4 .r7 .r7 (.lsl 3), .op2 .add .r4 .r4 .r9 .id, .op2 .add .r4 .r4 .r4 (.lsl 3),
  .op2 .add .r4 .r4 .r8 .id, .op2 .add .r4 .r4 .r4 (.lsl 3), .op2 .add .r4 .r4 .r1 .id, .op2 .sub .r4 .r6 .r4 .id,
  .op2 .mul .r4 .r4 .lr .id, .op2 .sub .r4 .r4 .r2 .id, .op1 (.lsr 3) .r4 .r4, .op2 .sub .r4 .r4 .r3 .id, .op2 .mul .r5 .r4 .ip .id,
  .op2 .sub .r6 .r3 .r4 .id, .op2 .sub .r3 .r2 .r6 .id, .op2 .sub .r3 .r3 .r5 .id, .ldrh .sl .r0 150 .off, .op2 .add .r1 .r1 .sl .id,
  .strh .r1 .r0 150 .off, .ldrh .sl .r0 278 .off, .op2 .add .r3 .r3 .sl .id, .strh .r3 .r0 278 .off, .ldrh .sl .r0 406 .off,
  .op2 .add .r8 .r8 .sl .id, .strh .r8 .r0 406 .off, .ldrh .sl .r0 534 .off, .op2 .add .r6 .r6 .sl .id, .strh .r6 .r0 534 .off,
  .ldrh .sl .r0 662 .off, .op2 .add .r9 .r9 .sl .id, .strh .r9 .r0 662 .off, .ldrh .sl .r0 790 .off, .op2 .add .r5 .r5 .sl .id,
  .strh .r5 .r0 790 .off, .strh .r7 .r0 918 .off, .ldrh .r1 .sp 152 .off, .ldrh .r2 .sp 408 .off, .ldrh .r3 .sp 664 .off,
  .ldrh .r4 .sp 920 .off, .ldrh .r5 .fp 152 .off, .ldrh .r6 .fp 408 .off, .ldrh .r7 .fp 664 .off, .op2 .add .r8 .r2 .r3 .id,
  .op1 (.lsr 1) .r8 .r8, .op2 .sub .r8 .r8 .r1 .id, .op2 .sub .r8 .r8 .r7 .id, .op2 .add .r9 .r4 .r5 .id, .op2 .sub .r9 .r9 .r1 (.lsl 1),
  .op2 .sub .r9 .r9 .r7 (.lsl 7), .op1 (.lsr 3) .r9 .r9, .op2 .sub .r9 .r9 .r8 .id, .op2 .mul .r9 .r9 .lr .id, .op2 .sub .r8 .r8 .r9 .id,
  .op2 .sub .r2 .r2 .r3 .id, .op1 (.lsr 1) .r2 .r2, .op2 .sub .r3 .r4 .r5 .id, .op1 (.lsr 2) .r3 .r3, .op2 .sub .r3 .r3 .r2 .id,
  .op2 .mul .r3 .r3 .lr .id, .op2 .add .r4 .r7 .r7 (.lsl 3), .op2 .add .r4 .r4 .r9 .id, .op2 .add .r4 .r4 .r4 (.lsl 3),
  .op2 .add .r4 .r4 .r8 .id, .op2 .add .r4 .r4 .r4 (.lsl 3), .op2 .add .r4 .r4 .r1 .id, .op2 .sub .r4 .r6 .r4 .id,
  .op2 .mul .r4 .r4 .lr .id, .op2 .sub .r4 .r4 .r2 .id, .op1 (.lsr 3) .r4 .r4, .op2 .sub .r4 .r4 .r3 .id, .op2 .mul .r5 .r4 .ip .id,
  .op2 .sub .r6 .r3 .r4 .id, .op2 .sub .r3 .r2 .r6 .id, .op2 .sub .r3 .r3 .r5 .id, .ldrh .sl .r0 152 .off, .op2 .add .r1 .r1 .sl .id,
  .strh .r1 .r0 152 .off, .ldrh .sl .r0 280 .off, .op2 .add .r3 .r3 .sl .id, .strh .r3 .r0 280 .off, .ldrh .sl .r0 408 .off,
  .op2 .add .r8 .r8 .sl .id, .strh .r8 .r0 408 .off, .ldrh .sl .r0 536 .off, .op2 .add .r6 .r6 .sl .id, .strh .r6 .r0 536 .off,
  .ldrh .sl .r0 664 .off, .op2 .add .r9 .r9 .sl .id, .strh .r9 .r0 664 .off, .ldrh .sl .r0 792 .off, .op2 .add .r5 .r5 .sl .id,
  .strh .r5 .r0 792 .off, .strh .r7 .r0 920 .off, .ldrh .r1 .sp 154 .off, .ldrh .r2 .sp 410 .off, .ldrh .r3 .sp 666 .off,
  .ldrh .r4 .sp 922 .off, .ldrh .r5 .fp 154 .off, .ldrh .r6 .fp 410 .off, .ldrh .r7 .fp 666 .off, .op2 .add .r8 .r2 .r3 .id,
  .op1 (.lsr 1) .r8 .r8, .op2 .sub .r8 .r8 .r1 .id, .op2 .sub .r8 .r8 .r7 .id, .op2 .add .r9 .r4 .r5 .id, .op2 .sub .r9 .r9 .r1 (.lsl 1),
  .op2 .sub .r9 .r9 .r7 (.lsl 7), .op1 (.lsr 3) .r9 .r9, .op2 .sub .r9 .r9 .r8 .id, .op2 .mul .r9 .r9 .lr .id]

/-- mult_toom4_256_16.s:7052-7171 -/
def polymul_asm_56 : List Ins := [
  .op2 .sub .r8 .r8 .r9 .id, .op2 .sub .r2 .r2 .r3 .id, .op1 (.lsr 1) .r2 .r2, .op2 .sub .r3 .r4 .r5 .id, .op1 (.lsr 2) .r3 .r3,
  .op2 .sub .r3 .r3 .r2 .id, .op2 .mul .r3 .r3 .lr .id, .op2 .add .r4 .r7 .r7 (.lsl 3), .op2 .add .r4 .r4 .r9 .id,
  .op2 .add .r4 .r4 .r4 (.lsl 3), .op2 .add .r4 .r4 .r8 .id, .op2 .add .r4 .r4 .r4 (.lsl 3), .op2 .add .r4 .r4 .r1 .id,
  .op2 .sub .r4 .r6 .r4 .id, .op2 .mul .r4 .r4 .lr .id, .op2 .sub .r4 .r4 .r2 .id, .op1 (.lsr 3) .r4 .r4, .op2 .sub .r4 .r4 .r3 .id,
  .op2 .mul .r5 .r4 .ip .id, .op2 .sub .r6 .r3 .r4 .id, .op2 .sub .r3 .r2 .r6 .id, .op2 .sub .r3 .r3 .r5 .id, .ldrh .sl .r0 154 .off,
  .op2 .add .r1 .r1 .sl .id, .strh .r1 .r0 154 .off, .ldrh .sl .r0 282 .off, .op2 .add .r3 .r3 .sl .id, .strh .r3 .r0 282 .off,
  .ldrh .sl .r0 410 .off, .op2 .add .r8 .r8 .sl .id, .strh .r8 .r0 410 .off, .ldrh .sl .r0 538 .off, .op2 .add .r6 .r6 .sl .id,
  .strh .r6 .r0 538 .off, .ldrh .sl .r0 666 .off, .op2 .add .r9 .r9 .sl .id, .strh .r9 .r0 666 .off, .ldrh .sl .r0 794 .off,
  .op2 .add .r5 .r5 .sl .id, .strh .r5 .r0 794 .off, .strh .r7 .r0 922 .off, .ldrh .r1 .sp 156 .off, .ldrh .r2 .sp 412 .off,
  .ldrh .r3 .sp 668 .off, .ldrh .r4 .sp 924 .off, .ldrh .r5 .fp 156 .off, .ldrh .r6 .fp 412 .off, .ldrh .r7 .fp 668 .off,
  .op2 .add .r8 .r2 .r3 .id, .op1 (.lsr 1) .r8 .r8, .op2 .sub .r8 .r8 .r1 .id, .op2 .sub .r8 .r8 .r7 .id, .op2 .add .r9 .r4 .r5 .id,
  .op2 .sub .r9 .r9 .r1 (.lsl 1), .op2 .sub .r9 .r9 .r7 (.lsl 7), .op1 (.lsr 3) .r9 .r9, .op2 .sub .r9 .r9 .r8 .id,
  .op2 .mul .r9 .r9 .lr .id, .op2 .sub .r8 .r8 .r9 .id, .op2 .sub .r2 .r2 .r3 .id, .op1 (.lsr 1) .r2 .r2, .op2 .sub .r3 .r4 .r5 .id,
  .op1 (.lsr 2) .r3 .r3, .op2 .sub .r3 .r3 .r2 .id, .op2 .mul .r3 .r3 .lr .id, .op2 .add .r4 .r7 .r7 (.lsl 3), .op2 .add .r4 .r4 .r9 .id,
  .op2 .add .r4 .r4 .r4 (.lsl 3), .op2 .add .r4 .r4 .r8 .id, .op2 .add .r4 .r4 .r4 (.lsl 3), .op2 .add .r4 .r4 .r1 .id,
  .op2 .sub .r4 .r6 .r4 .id, .op2 .mul .r4 .r4 .lr .id, .op2 .sub .r4 .r4 .r2 .id, .op1 (.lsr 3) .r4 .r4, .op2 .sub .r4 .r4 .r3 .id,
  .op2 .mul .r5 .r4 .ip .id, .op2 .sub .r6 .r3 .r4 .id, .op2 .sub .r3 .r2 .r6 .id, .op2 .sub .r3 .r3 .r5 .id, .ldrh .sl .r0 156 .off,
  .op2 .add .r1 .r1 .sl .id, .strh .r1 .r0 156 .off, .ldrh .sl .r0 284 .off, .op2 .add .r3 .r3 .sl .id, .strh .r3 .r0 284 .off,
  .ldrh .sl .r0 412 .off, .op2 .add .r8 .r8 .sl .id, .strh .r8 .r0 412 .off, .ldrh .sl .r0 540 .off, .op2 .add .r6 .r6 .sl .id,
  .strh .r6 .r0 540 .off, .ldrh .sl .r0 668 .off, .op2 .add .r9 .r9 .sl .id, .strh .r9 .r0 668 .off, .ldrh .sl .r0 796 .off,
  .op2 .add .r5 .r5 .sl .id, .strh .r5 .r0 796 .off, .strh .r7 .r0 924 .off, .ldrh .r1 .sp 158 .off, .ldrh .r2 .sp 414 .off,
  .ldrh .r3 .sp 670 .off, .ldrh .r4 .sp 926 .off, .ldrh .r5 .fp 158 .off, .ldrh .r6 .fp 414 .off, .ldrh .r7 .fp 670 .off,
  .op2 .add .r8 .r2 .r3 .id, .op1 (.lsr 1) .r8 .r8, .op2 .sub .r8 .r8 .r1 .id, .op2 .sub .r8 .r8 .r7 .id, .op2 .add .r9 .r4 .r5 .id,
  .op2 .sub .r9 .r9 .r1 (.lsl 1), .op2 .sub .r9 .r9 .r7 (.lsl 7), .op1 (.lsr 3) .r9 .r9, .op2 .sub .r9 .r9 .r8 .id,
  .op2 .mul .r9 .r9 .lr .id, .op2 .sub .r8 .r8 .r9 .id, .op2 .sub .r2 .r2 .r3 .id, .op1 (.lsr 1) .r2 .r2, .op2 .sub .r3 .r4 .r5 .id]

/-- mult_toom4_256_16.s:7172-7291 -/
def polymul_asm_57 : List Ins := [
  .op1 (.lsr 2) .r3 .r3, .op2 .sub .r3 .r3 .r2 .id, .op2 .mul .r3 .r3 .lr .id, .op2 .add .r4 .r7 .r7 (.lsl 3), .op2 .add .r4 .r4 .r9 .id,
  .op2 .add .r4 .r4 .r4 (.lsl 3), .op2 .add .r4 .r4 .r8 .id, .op2 .add .r4 .r4 .r4 (.lsl 3), .op2 .add .r4 .r4 .r1 .id,
  .op2 .sub .r4 .r6 .r4 .id, .op2 .mul .r4 .r4 .lr .id, .op2 .sub .r4 .r4 .r2 .id, .op1 (.lsr 3) .r4 .r4, .op2 .sub .r4 .r4 .r3 .id,
  .op2 .mul .r5 .r4 .ip .id, .op2 .sub .r6 .r3 .r4 .id, .op2 .sub .r3 .r2 .r6 .id, .op2 .sub .r3 .r3 .r5 .id, .ldrh .sl .r0 158 .off,
  .op2 .add .r1 .r1 .sl .id, .strh .r1 .r0 158 .off, .ldrh .sl .r0 286 .off, .op2 .add .r3 .r3 .sl .id, .strh .r3 .r0 286 .off,
  .ldrh .sl .r0 414 .off, .op2 .add .r8 .r8 .sl .id, .strh .r8 .r0 414 .off, .ldrh .sl .r0 542 .off, .op2 .add .r6 .r6 .sl .id,
  .strh .r6 .r0 542 .off, .ldrh .sl .r0 670 .off, .op2 .add .r9 .r9 .sl .id, .strh .r9 .r0 670 .off, .ldrh .sl .r0 798 .off,
  .op2 .add .r5 .r5 .sl .id, .strh .r5 .r0 798 .off, .strh .r7 .r0 926 .off, .ldrh .r1 .sp 160 .off, .ldrh .r2 .sp 416 .off,
  .ldrh .r3 .sp 672 .off, .ldrh .r4 .sp 928 .off, .ldrh .r5 .fp 160 .off, .ldrh .r6 .fp 416 .off, .ldrh .r7 .fp 672 .off,
  .op2 .add .r8 .r2 .r3 .id, .op1 (.lsr 1) .r8 .r8, .op2 .sub .r8 .r8 .r1 .id, .op2 .sub .r8 .r8 .r7 .id, .op2 .add .r9 .r4 .r5 .id,
  .op2 .sub .r9 .r9 .r1 (.lsl 1), .op2 .sub .r9 .r9 .r7 (.lsl 7), .op1 (.lsr 3) .r9 .r9, .op2 .sub .r9 .r9 .r8 .id,
  .op2 .mul .r9 .r9 .lr .id, .op2 .sub .r8 .r8 .r9 .id, .op2 .sub .r2 .r2 .r3 .id, .op1 (.lsr 1) .r2 .r2, .op2 .sub .r3 .r4 .r5 .id,
  .op1 (.lsr 2) .r3 .r3, .op2 .sub .r3 .r3 .r2 .id, .op2 .mul .r3 .r3 .lr .id, .op2 .add .r4 .r7 .r7 (.lsl 3), .op2 .add .r4 .r4 .r9 .id,
  .op2 .add .r4 .r4 .r4 (.lsl 3), .op2 .add .r4 .r4 .r8 .id, .op2 .add .r4 .r4 .r4 (.lsl 3), .op2 .add .r4 .r4 .r1 .id,
  .op2 .sub .r4 .r6 .r4 .id, .op2 .mul .r4 .r4 .lr .id, .op2 .sub .r4 .r4 .r2 .id, .op1 (.lsr 3) .r4 .r4, .op2 .sub .r4 .r4 .r3 .id,
  .op2 .mul .r5 .r4 .ip .id, .op2 .sub .r6 .r3 .r4 .id, .op2 .sub .r3 .r2 .r6 .id, .op2 .sub .r3 .r3 .r5 .id, .ldrh .sl .r0 160 .off,
  .op2 .add .r1 .r1 .sl .id, .strh .r1 .r0 160 .off, .ldrh .sl .r0 288 .off, .op2 .add .r3 .r3 .sl .id, .strh .r3 .r0 288 .off,
  .ldrh .sl .r0 416 .off, .op2 .add .r8 .r8 .sl .id, .strh .r8 .r0 416 .off, .ldrh .sl .r0 544 .off, .op2 .add .r6 .r6 .sl .id,
  .strh .r6 .r0 544 .off, .ldrh .sl .r0 672 .off, .op2 .add .r9 .r9 .sl .id, .strh .r9 .r0 672 .off, .ldrh .sl .r0 800 .off,
  .op2 .add .r5 .r5 .sl .id, .strh .r5 .r0 800 .off, .strh .r7 .r0 928 .off, .ldrh .r1 .sp 162 .off, .ldrh .r2 .sp 418 .off,
  .ldrh .r3 .sp 674 .off, .ldrh .r4 .sp 930 .off, .ldrh .r5 .fp 162 .off, .ldrh .r6 .fp 418 .off, .ldrh .r7 .fp 674 .off,
  .op2 .add .r8 .r2 .r3 .id, .op1 (.lsr 1) .r8 .r8, .op2 .sub .r8 .r8 .r1 .id, .op2 .sub .r8 .r8 .r7 .id, .op2 .add .r9 .r4 .r5 .id,
  .op2 .sub .r9 .r9 .r1 (.lsl 1), .op2 .sub .r9 .r9 .r7 (.lsl 7), .op1 (.lsr 3) .r9 .r9, .op2 .sub .r9 .r9 .r8 .id,
  .op2 .mul .r9 .r9 .lr .id, .op2 .sub .r8 .r8 .r9 .id, .op2 .sub .r2 .r2 .r3 .id, .op1 (.lsr 1) .r2 .r2, .op2 .sub .r3 .r4 .r5 .id,
  .op1 (.lsr 2) .r3 .r3, .op2 .sub .r3 .r3 .r2 .id, .op2 .mul .r3 .r3 .lr .id, .op2 .add .r4 .r7 .r7 (.lsl 3)]

/-- mult_toom4_256_16.s:7292-7411 -/
def polymul_asm_58 : List Ins := [
  .op2 .add .r4 .r4 .r9 .id, .op2 .add .r4 .r4 .r4 (.lsl 3), .op2 .add .r4 .r4 .r8 .id, .op2 .add .r4 .r4 .r4 (.lsl 3),
  .op2 .add .r4 .r4 .r1 .id, .op2 .sub .r4 .r6 .r4 .id, .op2 .mul .r4 .r4 .lr .id, .op2 .sub .r4 .r4 .r2 .id, .op1 (.lsr 3) .r4 .r4,
  .op2 .sub .r4 .r4 .r3 .id, .op2 .mul .r5 .r4 .ip .id, .op2 .sub .r6 .r3 .r4 .id, .op2 .sub .r3 .r2 .r6 .id, .op2 .sub .r3 .r3 .r5 .id,
  .ldrh .sl .r0 162 .off, .op2 .add .r1 .r1 .sl .id, .strh .r1 .r0 162 .off, .ldrh .sl .r0 290 .off, .op2 .add .r3 .r3 .sl .id,
  .strh .r3 .r0 290 .off, .ldrh .sl .r0 418 .off, .op2 .add .r8 .r8 .sl .id, .strh .r8 .r0 418 .off, .ldrh .sl .r0 546 .off,
  .op2 .add .r6 .r6 .sl .id, .strh .r6 .r0 546 .off, .ldrh .sl .r0 674 .off, .op2 .add .r9 .r9 .sl .id, .strh .r9 .r0 674 .off,
  .ldrh .sl .r0 802 .off, .op2 .add .r5 .r5 .sl .id, .strh .r5 .r0 802 .off, .strh .r7 .r0 930 .off, .ldrh .r1 .sp 164 .off,
  .ldrh .r2 .sp 420 .off, .ldrh .r3 .sp 676 .off, .ldrh .r4 .sp 932 .off, .ldrh .r5 .fp 164 .off, .ldrh .r6 .fp 420 .off,
  .ldrh .r7 .fp 676 .off, .op2 .add .r8 .r2 .r3 .id, .op1 (.lsr 1) .r8 .r8, .op2 .sub .r8 .r8 .r1 .id, .op2 .sub .r8 .r8 .r7 .id,
  .op2 .add .r9 .r4 .r5 .id, .op2 .sub .r9 .r9 .r1 (.lsl 1), .op2 .sub .r9 .r9 .r7 (.lsl 7), .op1 (.lsr 3) .r9 .r9,
  .op2 .sub .r9 .r9 .r8 .id, .op2 .mul .r9 .r9 .lr .id, .op2 .sub .r8 .r8 .r9 .id, .op2 .sub .r2 .r2 .r3 .id, .op1 (.lsr 1) .r2 .r2,
  .op2 .sub .r3 .r4 .r5 .id, .op1 (.lsr 2) .r3 .r3, .op2 .sub .r3 .r3 .r2 .id, .op2 .mul .r3 .r3 .lr .id, .op2 .add .r4 .r7 .r7 (.lsl 3),
  .op2 .add .r4 .r4 .r9 .id, .op2 .add .r4 .r4 .r4 (.lsl 3), .op2 .add .r4 .r4 .r8 .id, .op2 .add .r4 .r4 .r4 (.lsl 3),
  .op2 .add .r4 .r4 .r1 .id, .op2 .sub .r4 .r6 .r4 .id, .op2 .mul .r4 .r4 .lr .id, .op2 .sub .r4 .r4 .r2 .id, .op1 (.lsr 3) .r4 .r4,
  .op2 .sub .r4 .r4 .r3 .id, .op2 .mul .r5 .r4 .ip .id, .op2 .sub .r6 .r3 .r4 .id, .op2 .sub .r3 .r2 .r6 .id, .op2 .sub .r3 .r3 .r5 .id,
  .ldrh .sl .r0 164 .off, .op2 .add .r1 .r1 .sl .id, .strh .r1 .r0 164 .off, .ldrh .sl .r0 292 .off, .op2 .add .r3 .r3 .sl .id,
  .strh .r3 .r0 292 .off, .ldrh .sl .r0 420 .off, .op2 .add .r8 .r8 .sl .id, .strh .r8 .r0 420 .off, .ldrh .sl .r0 548 .off,
  .op2 .add .r6 .r6 .sl .id, .strh .r6 .r0 548 .off, .ldrh .sl .r0 676 .off, .op2 .add .r9 .r9 .sl .id, .strh .r9 .r0 676 .off,
  .ldrh .sl .r0 804 .off, .op2 .add .r5 .r5 .sl .id, .strh .r5 .r0 804 .off, .strh .r7 .r0 932 .off, .ldrh .r1 .sp 166 .off,
  .ldrh .r2 .sp 422 .off, .ldrh .r3 .sp 678 .off, .ldrh .r4 .sp 934 .off, .ldrh .r5 .fp 166 .off, .ldrh .r6 .fp 422 .off,
  .ldrh .r7 .fp 678 .off, .op2 .add .r8 .r2 .r3 .id, .op1 (.lsr 1) .r8 .r8, .op2 .sub .r8 .r8 .r1 .id, .op2 .sub .r8 .r8 .r7 .id,
  .op2 .add .r9 .r4 .r5 .id, .op2 .sub .r9 .r9 .r1 (.lsl 1), .op2 .sub .r9 .r9 .r7 (.lsl 7), .op1 (.lsr 3) .r9 .r9,
  .op2 .sub .r9 .r9 .r8 .id, .op2 .mul .r9 .r9 .lr .id, .op2 .sub .r8 .r8 .r9 .id, .op2 .sub .r2 .r2 .r3 .id, .op1 (.lsr 1) .r2 .r2,
  .op2 .sub .r3 .r4 .r5 .id, .op1 (.lsr 2) .r3 .r3, .op2 .sub .r3 .r3 .r2 .id, .op2 .mul .r3 .r3 .lr .id, .op2 .add .r4 .r7 .r7 (.lsl 3),
  .op2 .add .r4 .r4 .r9 .id, .op2 .add .r4 .r4 .r4 (.lsl 3), .op2 .add .r4 .r4 .r8 .id, .op2 .add .r4 .r4 .r4 (.lsl 3)]

/-- mult_toom4_256_16.s:7412-7531 -/
def polymul_asm_59 : List Ins := [
  .op2 .add .r4 .r4 .r1 .id, .op2 .sub .r4 .r6 .r4 .id, .op2 .mul .r4 .r4 .lr .id, .op2 .sub .r4 .r4 .r2 .id, .op1 (.lsr 3) .r4 .r4,
  .op2 .sub .r4 .r4 .r3 .id, .op2 .mul .r5 .r4 .ip .id, .op2 .sub .r6 .r3 .r4 .id, .op2 .sub .r3 .r2 .r6 .id, .op2 .sub .r3 .r3 .r5 .id,
  .ldrh .sl .r0 166 .off, .op2 .add .r1 .r1 .sl .id, .strh .r1 .r0 166 .off, .ldrh .sl .r0 294 .off, .op2 .add .r3 .r3 .sl .id,
  .strh .r3 .r0 294 .off, .ldrh .sl .r0 422 .off, .op2 .add .r8 .r8 .sl .id, .strh .r8 .r0 422 .off, .ldrh .sl .r0 550 .off,
  .op2 .add .r6 .r6 .sl .id, .strh .r6 .r0 550 .off, .ldrh .sl .r0 678 .off, .op2 .add .r9 .r9 .sl .id, .strh .r9 .r0 678 .off,
  .ldrh .sl .r0 806 .off, .op2 .add .r5 .r5 .sl .id, .strh .r5 .r0 806 .off, .strh .r7 .r0 934 .off, .ldrh .r1 .sp 168 .off,
  .ldrh .r2 .sp 424 .off, .ldrh .r3 .sp 680 .off, .ldrh .r4 .sp 936 .off, .ldrh .r5 .fp 168 .off, .ldrh .r6 .fp 424 .off,
  .ldrh .r7 .fp 680 .off, .op2 .add .r8 .r2 .r3 .id, .op1 (.lsr 1) .r8 .r8, .op2 .sub .r8 .r8 .r1 .id, .op2 .sub .r8 .r8 .r7 .id,
  .op2 .add .r9 .r4 .r5 .id, .op2 .sub .r9 .r9 .r1 (.lsl 1), .op2 .sub .r9 .r9 .r7 (.lsl 7), .op1 (.lsr 3) .r9 .r9,
  .op2 .sub .r9 .r9 .r8 .id, .op2 .mul .r9 .r9 .lr .id, .op2 .sub .r8 .r8 .r9 .id, .op2 .sub .r2 .r2 .r3 .id, .op1 (.lsr 1) .r2 .r2,
  .op2 .sub .r3 .r4 .r5 .id, .op1 (.lsr 2) .r3 .r3, .op2 .sub .r3 .r3 .r2 .id, .op2 .mul .r3 .r3 .lr .id, .op2 .add .r4 .r7 .r7 (.lsl 3),
  .op2 .add .r4 .r4 .r9 .id, .op2 .add .r4 .r4 .r4 (.lsl 3), .op2 .add .r4 .r4 .r8 .id, .op2 .add .r4 .r4 .r4 (.lsl 3),
  .op2 .add .r4 .r4 .r1 .id, .op2 .sub .r4 .r6 .r4 .id, .op2 .mul .r4 .r4 .lr .id, .op2 .sub .r4 .r4 .r2 .id, .op1 (.lsr 3) .r4 .r4,
  .op2 .sub .r4 .r4 .r3 .id, .op2 .mul .r5 .r4 .ip .id, .op2 .sub .r6 .r3 .r4 .id, .op2 .sub .r3 .r2 .r6 .id, .op2 .sub .r3 .r3 .r5 .id,
  .ldrh .sl .r0 168 .off, .op2 .add .r1 .r1 .sl .id, .strh .r1 .r0 168 .off, .ldrh .sl .r0 296 .off, .op2 .add .r3 .r3 .sl .id,
  .strh .r3 .r0 296 .off, .ldrh .sl .r0 424 .off, .op2 .add .r8 .r8 .sl .id, .strh .r8 .r0 424 .off, .ldrh .sl .r0 552 .off,
  .op2 .add .r6 .r6 .sl .id, .strh .r6 .r0 552 .off, .ldrh .sl .r0 680 .off, .op2 .add .r9 .r9 .sl .id, .strh .r9 .r0 680 .off,
  .ldrh .sl .r0 808 .off, .op2 .add .r5 .r5 .sl .id, .strh .r5 .r0 808 .off, .strh .r7 .r0 936 .off, .ldrh .r1 .sp 170 .off,
  .ldrh .r2 .sp 426 .off, .ldrh .r3 .sp 682 .off, .ldrh .r4 .sp 938 .off, .ldrh .r5 .fp 170 .off, .ldrh .r6 .fp 426 .off,
  .ldrh .r7 .fp 682 .off, .op2 .add .r8 .r2 .r3 .id, .op1 (.lsr 1) .r8 .r8, .op2 .sub .r8 .r8 .r1 .id, .op2 .sub .r8 .r8 .r7 .id,
  .op2 .add .r9 .r4 .r5 .id, .op2 .sub .r9 .r9 .r1 (.lsl 1), .op2 .sub .r9 .r9 .r7 (.lsl 7), .op1 (.lsr 3) .r9 .r9,
  .op2 .sub .r9 .r9 .r8 .id, .op2 .mul .r9 .r9 .lr .id, .op2 .sub .r8 .r8 .r9 .id, .op2 .sub .r2 .r2 .r3 .id, .op1 (.lsr 1) .r2 .r2,
  .op2 .sub .r3 .r4 .r5 .id, .op1 (.lsr 2) .r3 .r3, .op2 .sub .r3 .r3 .r2 .id, .op2 .mul .r3 .r3 .lr .id, .op2 .add .r4 .r7 .r7 (.lsl 3),
  .op2 .add .r4 .r4 .r9 .id, .op2 .add .r4 .r4 .r4 (.lsl 3), .op2 .add .r4 .r4 .r8 .id, .op2 .add .r4 .r4 .r4 (.lsl 3),
  .op2 .add .r4 .r4 .r1 .id, .op2 .sub .r4 .r6 .r4 .id, .op2 .mul .r4 .r4 .lr .id, .op2 .sub .r4 .r4 .r2 .id]

/-- mult_toom4_256_16.s:7532-7651 -/
def polymul_asm_60 : List Ins := [
  .op1 (.lsr 3) .r4 .r4, .op2 .sub .r4 .r4 .r3 .id, .op2 .mul .r5 .r4 .ip .id, .op2 .sub .r6 .r3 .r4 .id, .op2 .sub .r3 .r2 .r6 .id,
  .op2 .sub .r3 .r3 .r5 .id, .ldrh .sl .r0 170 .off, .op2 .add .r1 .r1 .sl .id, .strh .r1 .r0 170 .off, .ldrh .sl .r0 298 .off,
  .op2 .add .r3 .r3 .sl .id, .strh .r3 .r0 298 .off, .ldrh .sl .r0 426 .off, .op2 .add .r8 .r8 .sl .id, .strh .r8 .r0 426 .off,
  .ldrh .sl .r0 554 .off, .op2 .add .r6 .r6 .sl .id, .strh .r6 .r0 554 .off, .ldrh .sl .r0 682 .off, .op2 .add .r9 .r9 .sl .id,
  .strh .r9 .r0 682 .off, .ldrh .sl .r0 810 .off, .op2 .add .r5 .r5 .sl .id, .strh .r5 .r0 810 .off, .strh .r7 .r0 938 .off,
  .ldrh .r1 .sp 172 .off, .ldrh .r2 .sp 428 .off, .ldrh .r3 .sp 684 .off, .ldrh .r4 .sp 940 .off, .ldrh .r5 .fp 172 .off,
  .ldrh .r6 .fp 428 .off, .ldrh .r7 .fp 684 .off, .op2 .add .r8 .r2 .r3 .id, .op1 (.lsr 1) .r8 .r8, .op2 .sub .r8 .r8 .r1 .id,
  .op2 .sub .r8 .r8 .r7 .id, .op2 .add .r9 .r4 .r5 .id, .op2 .sub .r9 .r9 .r1 (.lsl 1), .op2 .sub .r9 .r9 .r7 (.lsl 7),
  .op1 (.lsr 3) .r9 .r9, .op2 .sub .r9 .r9 .r8 .id, .op2 .mul .r9 .r9 .lr .id, .op2 .sub .r8 .r8 .r9 .id, .op2 .sub .r2 .r2 .r3 .id,
  .op1 (.lsr 1) .r2 .r2, .op2 .sub .r3 .r4 .r5 .id, .op1 (.lsr 2) .r3 .r3, .op2 .sub .r3 .r3 .r2 .id, .op2 .mul .r3 .r3 .lr .id,
  .op2 .add .r4 .r7 .r7 (.lsl 3), .op2 .add .r4 .r4 .r9 .id, .op2 .add .r4 .r4 .r4 (.lsl 3), .op2 .add .r4 .r4 .r8 .id,
  .op2 .add .r4 .r4 .r4 (.lsl 3), .op2 .add .r4 .r4 .r1 .id, .op2 .sub .r4 .r6 .r4 .id, .op2 .mul .r4 .r4 .lr .id,
  .op2 .sub .r4 .r4 .r2 .id, .op1 (.lsr 3) .r4 .r4, .op2 .sub .r4 .r4 .r3 .id, .op2 .mul .r5 .r4 .ip .id, .op2 .sub .r6 .r3 .r4 .id,
  .op2 .sub .r3 .r2 .r6 .id, .op2 .sub .r3 .r3 .r5 .id, .ldrh .sl .r0 172 .off, .op2 .add .r1 .r1 .sl .id, .strh .r1 .r0 172 .off,
  .ldrh .sl .r0 300 .off, .op2 .add .r3 .r3 .sl .id, .strh .r3 .r0 300 .off, .ldrh .sl .r0 428 .off, .op2 .add .r8 .r8 .sl .id,
  .strh .r8 .r0 428 .off, .ldrh .sl .r0 556 .off, .op2 .add .r6 .r6 .sl .id, .strh .r6 .r0 556 .off, .ldrh .sl .r0 684 .off,
  .op2 .add .r9 .r9 .sl .id, .strh .r9 .r0 684 .off, .ldrh .sl .r0 812 .off, .op2 .add .r5 .r5 .sl .id, .strh .r5 .r0 812 .off,
  .strh .r7 .r0 940 .off, .ldrh .r1 .sp 174 .off, .ldrh .r2 .sp 430 .off, .ldrh .r3 .sp 686 .off, .ldrh .r4 .sp 942 .off,
  .ldrh .r5 .fp 174 .off, .ldrh .r6 .fp 430 .off, .ldrh .r7 .fp 686 .off, .op2 .add .r8 .r2 .r3 .id, .op1 (.lsr 1) .r8 .r8,
  .op2 .sub .r8 .r8 .r1 .id, .op2 .sub .r8 .r8 .r7 .id, .op2 .add .r9 .r4 .r5 .id, .op2 .sub .r9 .r9 .r1 (.lsl 1),
  .op2 .sub .r9 .r9 .r7 (.lsl 7), .op1 (.lsr 3) .r9 .r9, .op2 .sub .r9 .r9 .r8 .id, .op2 .mul .r9 .r9 .lr .id, .op2 .sub .r8 .r8 .r9 .id,
  .op2 .sub .r2 .r2 .r3 .id, .op1 (.lsr 1) .r2 .r2, .op2 .sub .r3 .r4 .r5 .id, .op1 (.lsr 2) .r3 .r3, .op2 .sub .r3 .r3 .r2 .id,
  .op2 .mul .r3 .r3 .lr .id, .op2 .add .r4 .r7 .r7 (.lsl 3), .op2 .add .r4 .r4 .r9 .id, .op2 .add .r4 .r4 .r4 (.lsl 3),
  .op2 .add .r4 .r4 .r8 .id, .op2 .add .r4 .r4 .r4 (.lsl 3), .op2 .add .r4 .r4 .r1 .id, .op2 .sub .r4 .r6 .r4 .id,
  .op2 .mul .r4 .r4 .lr .id, .op2 .sub .r4 .r4 .r2 .id, .op1 (.lsr 3) .r4 .r4, .op2 .sub .r4 .r4 .r3 .id, .op2 .mul .r5 .r4 .ip .id,
  .op2 .sub .r6 .r3 .r4 .id]

/-- mult_toom4_256_16.s:7652-7771 -/
def polymul_asm_61 : List Ins := [
  .op2 .sub .r3 .r2 .r6 .id, .op2 .sub .r3 .r3 .r5 .id, .ldrh .sl .r0 174 .off, .op2 .add .r1 .r1 .sl .id, .strh .r1 .r0 174 .off,
  .ldrh .sl .r0 302 .off, .op2 .add .r3 .r3 .sl .id, .strh .r3 .r0 302 .off, .ldrh .sl .r0 430 .off, .op2 .add .r8 .r8 .sl .id,
  .strh .r8 .r0 430 .off, .ldrh .sl .r0 558 .off, .op2 .add .r6 .r6 .sl .id, .strh .r6 .r0 558 .off, .ldrh .sl .r0 686 .off,
  .op2 .add .r9 .r9 .sl .id, .strh .r9 .r0 686 .off, .ldrh .sl .r0 814 .off, .op2 .add .r5 .r5 .sl .id, .strh .r5 .r0 814 .off,
  .strh .r7 .r0 942 .off, .ldrh .r1 .sp 176 .off, .ldrh .r2 .sp 432 .off, .ldrh .r3 .sp 688 .off, .ldrh .r4 .sp 944 .off,
  .ldrh .r5 .fp 176 .off, .ldrh .r6 .fp 432 .off, .ldrh .r7 .fp 688 .off, .op2 .add .r8 .r2 .r3 .id, .op1 (.lsr 1) .r8 .r8,
  .op2 .sub .r8 .r8 .r1 .id, .op2 .sub .r8 .r8 .r7 .id, .op2 .add .r9 .r4 .r5 .id, .op2 .sub .r9 .r9 .r1 (.lsl 1),
  .op2 .sub .r9 .r9 .r7 (.lsl 7), .op1 (.lsr 3) .r9 .r9, .op2 .sub .r9 .r9 .r8 .id, .op2 .mul .r9 .r9 .lr .id, .op2 .sub .r8 .r8 .r9 .id,
  .op2 .sub .r2 .r2 .r3 .id, .op1 (.lsr 1) .r2 .r2, .op2 .sub .r3 .r4 .r5 .id, .op1 (.lsr 2) .r3 .r3, .op2 .sub .r3 .r3 .r2 .id,
  .op2 .mul .r3 .r3 .lr .id, .op2 .add .r4 .r7 .r7 (.lsl 3), .op2 .add .r4 .r4 .r9 .id, .op2 .add .r4 .r4 .r4 (.lsl 3),
  .op2 .add .r4 .r4 .r8 .id, .op2 .add .r4 .r4 .r4 (.lsl 3), .op2 .add .r4 .r4 .r1 .id, .op2 .sub .r4 .r6 .r4 .id,
  .op2 .mul .r4 .r4 .lr .id, .op2 .sub .r4 .r4 .r2 .id, .op1 (.lsr 3) .r4 .r4, .op2 .sub .r4 .r4 .r3 .id, .op2 .mul .r5 .r4 .ip .id,
  .op2 .sub .r6 .r3 .r4 .id, .op2 .sub .r3 .r2 .r6 .id, .op2 .sub .r3 .r3 .r5 .id, .ldrh .sl .r0 176 .off, .op2 .add .r1 .r1 .sl .id,
  .strh .r1 .r0 176 .off, .ldrh .sl .r0 304 .off, .op2 .add .r3 .r3 .sl .id, .strh .r3 .r0 304 .off, .ldrh .sl .r0 432 .off,
  .op2 .add .r8 .r8 .sl .id, .strh .r8 .r0 432 .off, .ldrh .sl .r0 560 .off, .op2 .add .r6 .r6 .sl .id, .strh .r6 .r0 560 .off,
  .ldrh .sl .r0 688 .off, .op2 .add .r9 .r9 .sl .id, .strh .r9 .r0 688 .off, .ldrh .sl .r0 816 .off, .op2 .add .r5 .r5 .sl .id,
  .strh .r5 .r0 816 .off, .strh .r7 .r0 944 .off, .ldrh .r1 .sp 178 .off, .ldrh .r2 .sp 434 .off, .ldrh .r3 .sp 690 .off,
  .ldrh .r4 .sp 946 .off, .ldrh .r5 .fp 178 .off, .ldrh .r6 .fp 434 .off, .ldrh .r7 .fp 690 .off, .op2 .add .r8 .r2 .r3 .id,
  .op1 (.lsr 1) .r8 .r8, .op2 .sub .r8 .r8 .r1 .id, .op2 .sub .r8 .r8 .r7 .id, .op2 .add .r9 .r4 .r5 .id, .op2 .sub .r9 .r9 .r1 (.lsl 1),
  .op2 .sub .r9 .r9 .r7 (.lsl 7), .op1 (.lsr 3) .r9 .r9, .op2 .sub .r9 .r9 .r8 .id, .op2 .mul .r9 .r9 .lr .id, .op2 .sub .r8 .r8 .r9 .id,
  .op2 .sub .r2 .r2 .r3 .id, .op1 (.lsr 1) .r2 .r2, .op2 .sub .r3 .r4 .r5 .id, .op1 (.lsr 2) .r3 .r3, .op2 .sub .r3 .r3 .r2 .id,
  .op2 .mul .r3 .r3 .lr .id, .op2 .add .r4 .r7 .r7 (.lsl 3), .op2 .add .r4 .r4 .r9 .id, .op2 .add .r4 .r4 .r4 (.lsl 3),
  .op2 .add .r4 .r4 .r8 .id, .op2 .add .r4 .r4 .r4 (.lsl 3), .op2 .add .r4 .r4 .r1 .id, .op2 .sub .r4 .r6 .r4 .id,
  .op2 .mul .r4 .r4 .lr .id, .op2 .sub .r4 .r4 .r2 .id, .op1 (.lsr 3) .r4 .r4, .op2 .sub .r4 .r4 .r3 .id, .op2 .mul .r5 .r4 .ip .id,
  .op2 .sub .r6 .r3 .r4 .id, .op2 .sub .r3 .r2 .r6 .id, .op2 .sub .r3 .r3 .r5 .id, .ldrh .sl .r0 178 .off, .op2 .add .r1 .r1 .sl .id]

/-- mult_toom4_256_16.s:7772-7891 -/
def polymul_asm_62 : List Ins := [
  .strh .r1 .r0 178 .off, .ldrh .sl .r0 306 .off, .op2 .add .r3 .r3 .sl .id, .strh .r3 .r0 306 .off, .ldrh .sl .r0 434 .off,
  .op2 .add .r8 .r8 .sl .id, .strh .r8 .r0 434 .off, .ldrh .sl .r0 562 .off, .op2 .add .r6 .r6 .sl .id, .strh .r6 .r0 562 .off,
  .ldrh .sl .r0 690 .off, .op2 .add .r9 .r9 .sl .id, .strh .r9 .r0 690 .off, .ldrh .sl .r0 818 .off, .op2 .add .r5 .r5 .sl .id,
  .strh .r5 .r0 818 .off, .strh .r7 .r0 946 .off, .ldrh .r1 .sp 180 .off, .ldrh .r2 .sp 436 .off, .ldrh .r3 .sp 692 .off,
  .ldrh .r4 .sp 948 .off, .ldrh .r5 .fp 180 .off, .ldrh .r6 .fp 436 .off, .ldrh .r7 .fp 692 .off, .op2 .add .r8 .r2 .r3 .id,
  .op1 (.lsr 1) .r8 .r8, .op2 .sub .r8 .r8 .r1 .id, .op2 .sub .r8 .r8 .r7 .id, .op2 .add .r9 .r4 .r5 .id, .op2 .sub .r9 .r9 .r1 (.lsl 1),
  .op2 .sub .r9 .r9 .r7 (.lsl 7), .op1 (.lsr 3) .r9 .r9, .op2 .sub .r9 .r9 .r8 .id, .op2 .mul .r9 .r9 .lr .id, .op2 .sub .r8 .r8 .r9 .id,
  .op2 .sub .r2 .r2 .r3 .id, .op1 (.lsr 1) .r2 .r2, .op2 .sub .r3 .r4 .r5 .id, .op1 (.lsr 2) .r3 .r3, .op2 .sub .r3 .r3 .r2 .id,
  .op2 .mul .r3 .r3 .lr .id, .op2 .add .r4 .r7 .r7 (.lsl 3), .op2 .add .r4 .r4 .r9 .id, .op2 .add .r4 .r4 .r4 (.lsl 3),
  .op2 .add .r4 .r4 .r8 .id, .op2 .add .r4 .r4 .r4 (.lsl 3), .op2 .add .r4 .r4 .r1 .id, .op2 .sub .r4 .r6 .r4 .id,
  .op2 .mul .r4 .r4 .lr .id, .op2 .sub .r4 .r4 .r2 .id, .op1 (.lsr 3) .r4 .r4, .op2 .sub .r4 .r4 .r3 .id, .op2 .mul .r5 .r4 .ip .id,
  .op2 .sub .r6 .r3 .r4 .id, .op2 .sub .r3 .r2 .r6 .id, .op2 .sub .r3 .r3 .r5 .id, .ldrh .sl .r0 180 .off, .op2 .add .r1 .r1 .sl .id,
  .strh .r1 .r0 180 .off, .ldrh .sl .r0 308 .off, .op2 .add .r3 .r3 .sl .id, .strh .r3 .r0 308 .off, .ldrh .sl .r0 436 .off,
  .op2 .add .r8 .r8 .sl .id, .strh .r8 .r0 436 .off, .ldrh .sl .r0 564 .off, .op2 .add .r6 .r6 .sl .id, .strh .r6 .r0 564 .off,
  .ldrh .sl .r0 692 .off, .op2 .add .r9 .r9 .sl .id, .strh .r9 .r0 692 .off, .ldrh .sl .r0 820 .off, .op2 .add .r5 .r5 .sl .id,
  .strh .r5 .r0 820 .off, .strh .r7 .r0 948 .off, .ldrh .r1 .sp 182 .off, .ldrh .r2 .sp 438 .off, .ldrh .r3 .sp 694 .off,
  .ldrh .r4 .sp 950 .off, .ldrh .r5 .fp 182 .off, .ldrh .r6 .fp 438 .off, .ldrh .r7 .fp 694 .off, .op2 .add .r8 .r2 .r3 .id,
  .op1 (.lsr 1) .r8 .r8, .op2 .sub .r8 .r8 .r1 .id, .op2 .sub .r8 .r8 .r7 .id, .op2 .add .r9 .r4 .r5 .id, .op2 .sub .r9 .r9 .r1 (.lsl 1),
  .op2 .sub .r9 .r9 .r7 (.lsl 7), .op1 (.lsr 3) .r9 .r9, .op2 .sub .r9 .r9 .r8 .id, .op2 .mul .r9 .r9 .lr .id, .op2 .sub .r8 .r8 .r9 .id,
  .op2 .sub .r2 .r2 .r3 .id, .op1 (.lsr 1) .r2 .r2, .op2 .sub .r3 .r4 .r5 .id, .op1 (.lsr 2) .r3 .r3, .op2 .sub .r3 .r3 .r2 .id,
  .op2 .mul .r3 .r3 .lr .id, .op2 .add .r4 .r7 .r7 (.lsl 3), .op2 .add .r4 .r4 .r9 .id, .op2 .add .r4 .r4 .r4 (.lsl 3),
  .op2 .add .r4 .r4 .r8 .id, .op2 .add .r4 .r4 .r4 (.lsl 3), .op2 .add .r4 .r4 .r1 .id, .op2 .sub .r4 .r6 .r4 .id,
  .op2 .mul .r4 .r4 .lr .id, .op2 .sub .r4 .r4 .r2 .id, .op1 (.lsr 3) .r4 .r4, .op2 .sub .r4 .r4 .r3 .id, .op2 .mul .r5 .r4 .ip .id,
  .op2 .sub .r6 .r3 .r4 .id, .op2 .sub .r3 .r2 .r6 .id, .op2 .sub .r3 .r3 .r5 .id, .ldrh .sl .r0 182 .off, .op2 .add .r1 .r1 .sl .id,
  .strh .r1 .r0 182 .off, .ldrh .sl .r0 310 .off, .op2 .add .r3 .r3 .sl .id, .strh .r3 .r0 310 .off]

/-- mult_toom4_256_16.s:7892-8011 -/
def polymul_asm_63 : List Ins := [
  .ldrh .sl .r0 438 .off, .op2 .add .r8 .r8 .sl .id, .strh .r8 .r0 438 .off, .ldrh .sl .r0 566 .off, .op2 .add .r6 .r6 .sl .id,
  .strh .r6 .r0 566 .off, .ldrh .sl .r0 694 .off, .op2 .add .r9 .r9 .sl .id, .strh .r9 .r0 694 .off, .ldrh .sl .r0 822 .off,
  .op2 .add .r5 .r5 .sl .id, .strh .r5 .r0 822 .off, .strh .r7 .r0 950 .off, .ldrh .r1 .sp 184 .off, .ldrh .r2 .sp 440 .off,
  .ldrh .r3 .sp 696 .off, .ldrh .r4 .sp 952 .off, .ldrh .r5 .fp 184 .off, .ldrh .r6 .fp 440 .off, .ldrh .r7 .fp 696 .off,
  .op2 .add .r8 .r2 .r3 .id, .op1 (.lsr 1) .r8 .r8, .op2 .sub .r8 .r8 .r1 .id, .op2 .sub .r8 .r8 .r7 .id, .op2 .add .r9 .r4 .r5 .id,
  .op2 .sub .r9 .r9 .r1 (.lsl 1), .op2 .sub .r9 .r9 .r7 (.lsl 7), .op1 (.lsr 3) .r9 .r9, .op2 .sub .r9 .r9 .r8 .id,
  .op2 .mul .r9 .r9 .lr .id, .op2 .sub .r8 .r8 .r9 .id, .op2 .sub .r2 .r2 .r3 .id, .op1 (.lsr 1) .r2 .r2, .op2 .sub .r3 .r4 .r5 .id,
  .op1 (.lsr 2) .r3 .r3, .op2 .sub .r3 .r3 .r2 .id, .op2 .mul .r3 .r3 .lr .id, .op2 .add .r4 .r7 .r7 (.lsl 3), .op2 .add .r4 .r4 .r9 .id,
  .op2 .add .r4 .r4 .r4 (.lsl 3), .op2 .add .r4 .r4 .r8 .id, .op2 .add .r4 .r4 .r4 (.lsl 3), .op2 .add .r4 .r4 .r1 .id,
  .op2 .sub .r4 .r6 .r4 .id, .op2 .mul .r4 .r4 .lr .id, .op2 .sub .r4 .r4 .r2 .id, .op1 (.lsr 3) .r4 .r4, .op2 .sub .r4 .r4 .r3 .id,
  .op2 .mul .r5 .r4 .ip .id, .op2 .sub .r6 .r3 .r4 .id, .op2 .sub .r3 .r2 .r6 .id, .op2 .sub .r3 .r3 .r5 .id, .ldrh .sl .r0 184 .off,
  .op2 .add .r1 .r1 .sl .id, .strh .r1 .r0 184 .off, .ldrh .sl .r0 312 .off, .op2 .add .r3 .r3 .sl .id, .strh .r3 .r0 312 .off,
  .ldrh .sl .r0 440 .off, .op2 .add .r8 .r8 .sl .id, .strh .r8 .r0 440 .off, .ldrh .sl .r0 568 .off, .op2 .add .r6 .r6 .sl .id,
  .strh .r6 .r0 568 .off, .ldrh .sl .r0 696 .off, .op2 .add .r9 .r9 .sl .id, .strh .r9 .r0 696 .off, .ldrh .sl .r0 824 .off,
  .op2 .add .r5 .r5 .sl .id, .strh .r5 .r0 824 .off, .strh .r7 .r0 952 .off, .ldrh .r1 .sp 186 .off, .ldrh .r2 .sp 442 .off,
  .ldrh .r3 .sp 698 .off, .ldrh .r4 .sp 954 .off, .ldrh .r5 .fp 186 .off, .ldrh .r6 .fp 442 .off, .ldrh .r7 .fp 698 .off,
  .op2 .add .r8 .r2 .r3 .id, .op1 (.lsr 1) .r8 .r8, .op2 .sub .r8 .r8 .r1 .id, .op2 .sub .r8 .r8 .r7 .id, .op2 .add .r9 .r4 .r5 .id,
  .op2 .sub .r9 .r9 .r1 (.lsl 1), .op2 .sub .r9 .r9 .r7 (.lsl 7), .op1 (.lsr 3) .r9 .r9, .op2 .sub .r9 .r9 .r8 .id,
  .op2 .mul .r9 .r9 .lr .id, .op2 .sub .r8 .r8 .r9 .id, .op2 .sub .r2 .r2 .r3 .id, .op1 (.lsr 1) .r2 .r2, .op2 .sub .r3 .r4 .r5 .id,
  .op1 (.lsr 2) .r3 .r3, .op2 .sub .r3 .r3 .r2 .id, .op2 .mul .r3 .r3 .lr .id, .op2 .add .r4 .r7 .r7 (.lsl 3), .op2 .add .r4 .r4 .r9 .id,
  .op2 .add .r4 .r4 .r4 (.lsl 3), .op2 .add .r4 .r4 .r8 .id, .op2 .add .r4 .r4 .r4 (.lsl 3), .op2 .add .r4 .r4 .r1 .id,
  .op2 .sub .r4 .r6 .r4 .id, .op2 .mul .r4 .r4 .lr .id, .op2 .sub .r4 .r4 .r2 .id, .op1 (.lsr 3) .r4 .r4, .op2 .sub .r4 .r4 .r3 .id,
  .op2 .mul .r5 .r4 .ip .id, .op2 .sub .r6 .r3 .r4 .id, .op2 .sub .r3 .r2 .r6 .id, .op2 .sub .r3 .r3 .r5 .id, .ldrh .sl .r0 186 .off,
  .op2 .add .r1 .r1 .sl .id, .strh .r1 .r0 186 .off, .ldrh .sl .r0 314 .off, .op2 .add .r3 .r3 .sl .id, .strh .r3 .r0 314 .off,
  .ldrh .sl .r0 442 .off, .op2 .add .r8 .r8 .sl .id, .strh .r8 .r0 442 .off, .ldrh .sl .r0 570 .off]

/-- mult_toom4_256_16.s:8012-8131 -/
def polymul_asm_64 : List Ins := [
  .op2 .add .r6 .r6 .sl .id, .strh .r6 .r0 570 .off, .ldrh .sl .r0 698 .off, .op2 .add .r9 .r9 .sl .id, .strh .r9 .r0 698 .off,
  .ldrh .sl .r0 826 .off, .op2 .add .r5 .r5 .sl .id, .strh .r5 .r0 826 .off, .strh .r7 .r0 954 .off, .ldrh .r1 .sp 188 .off,
  .ldrh .r2 .sp 444 .off, .ldrh .r3 .sp 700 .off, .ldrh .r4 .sp 956 .off, .ldrh .r5 .fp 188 .off, .ldrh .r6 .fp 444 .off,
  .ldrh .r7 .fp 700 .off, .op2 .add .r8 .r2 .r3 .id, .op1 (.lsr 1) .r8 .r8, .op2 .sub .r8 .r8 .r1 .id, .op2 .sub .r8 .r8 .r7 .id,
  .op2 .add .r9 .r4 .r5 .id, .op2 .sub .r9 .r9 .r1 (.lsl 1), .op2 .sub .r9 .r9 .r7 (.lsl 7), .op1 (.lsr 3) .r9 .r9,
  .op2 .sub .r9 .r9 .r8 .id, .op2 .mul .r9 .r9 .lr .id, .op2 .sub .r8 .r8 .r9 .id, .op2 .sub .r2 .r2 .r3 .id, .op1 (.lsr 1) .r2 .r2,
  .op2 .sub .r3 .r4 .r5 .id, .op1 (.lsr 2) .r3 .r3, .op2 .sub .r3 .r3 .r2 .id, .op2 .mul .r3 .r3 .lr .id, .op2 .add .r4 .r7 .r7 (.lsl 3),
  .op2 .add .r4 .r4 .r9 .id, .op2 .add .r4 .r4 .r4 (.lsl 3), .op2 .add .r4 .r4 .r8 .id, .op2 .add .r4 .r4 .r4 (.lsl 3),
  .op2 .add .r4 .r4 .r1 .id, .op2 .sub .r4 .r6 .r4 .id, .op2 .mul .r4 .r4 .lr .id, .op2 .sub .r4 .r4 .r2 .id, .op1 (.lsr 3) .r4 .r4,
  .op2 .sub .r4 .r4 .r3 .id, .op2 .mul .r5 .r4 .ip .id, .op2 .sub .r6 .r3 .r4 .id, .op2 .sub .r3 .r2 .r6 .id, .op2 .sub .r3 .r3 .r5 .id,
  .ldrh .sl .r0 188 .off, .op2 .add .r1 .r1 .sl .id, .strh .r1 .r0 188 .off, .ldrh .sl .r0 316 .off, .op2 .add .r3 .r3 .sl .id,
  .strh .r3 .r0 316 .off, .ldrh .sl .r0 444 .off, .op2 .add .r8 .r8 .sl .id, .strh .r8 .r0 444 .off, .ldrh .sl .r0 572 .off,
  .op2 .add .r6 .r6 .sl .id, .strh .r6 .r0 572 .off, .ldrh .sl .r0 700 .off, .op2 .add .r9 .r9 .sl .id, .strh .r9 .r0 700 .off,
  .ldrh .sl .r0 828 .off, .op2 .add .r5 .r5 .sl .id, .strh .r5 .r0 828 .off, .strh .r7 .r0 956 .off, .ldrh .r1 .sp 190 .off,
  .ldrh .r2 .sp 446 .off, .ldrh .r3 .sp 702 .off, .ldrh .r4 .sp 958 .off, .ldrh .r5 .fp 190 .off, .ldrh .r6 .fp 446 .off,
  .ldrh .r7 .fp 702 .off, .op2 .add .r8 .r2 .r3 .id, .op1 (.lsr 1) .r8 .r8, .op2 .sub .r8 .r8 .r1 .id, .op2 .sub .r8 .r8 .r7 .id,
  .op2 .add .r9 .r4 .r5 .id, .op2 .sub .r9 .r9 .r1 (.lsl 1), .op2 .sub .r9 .r9 .r7 (.lsl 7), .op1 (.lsr 3) .r9 .r9,
  .op2 .sub .r9 .r9 .r8 .id, .op2 .mul .r9 .r9 .lr .id, .op2 .sub .r8 .r8 .r9 .id, .op2 .sub .r2 .r2 .r3 .id, .op1 (.lsr 1) .r2 .r2,
  .op2 .sub .r3 .r4 .r5 .id, .op1 (.lsr 2) .r3 .r3, .op2 .sub .r3 .r3 .r2 .id, .op2 .mul .r3 .r3 .lr .id, .op2 .add .r4 .r7 .r7 (.lsl 3),
  .op2 .add .r4 .r4 .r9 .id, .op2 .add .r4 .r4 .r4 (.lsl 3), .op2 .add .r4 .r4 .r8 .id, .op2 .add .r4 .r4 .r4 (.lsl 3),
  .op2 .add .r4 .r4 .r1 .id, .op2 .sub .r4 .r6 .r4 .id, .op2 .mul .r4 .r4 .lr .id, .op2 .sub .r4 .r4 .r2 .id, .op1 (.lsr 3) .r4 .r4,
  .op2 .sub .r4 .r4 .r3 .id, .op2 .mul .r5 .r4 .ip .id, .op2 .sub .r6 .r3 .r4 .id, .op2 .sub .r3 .r2 .r6 .id, .op2 .sub .r3 .r3 .r5 .id,
  .ldrh .sl .r0 190 .off, .op2 .add .r1 .r1 .sl .id, .strh .r1 .r0 190 .off, .ldrh .sl .r0 318 .off, .op2 .add .r3 .r3 .sl .id,
  .strh .r3 .r0 318 .off, .ldrh .sl .r0 446 .off, .op2 .add .r8 .r8 .sl .id, .strh .r8 .r0 446 .off, .ldrh .sl .r0 574 .off,
  .op2 .add .r6 .r6 .sl .id, .strh .r6 .r0 574 .off, .ldrh .sl .r0 702 .off, .op2 .add .r9 .r9 .sl .id]

/-- mult_toom4_256_16.s:8132-8251 -/
def polymul_asm_65 : List Ins := [
  .strh .r9 .r0 702 .off, .ldrh .sl .r0 830 .off, .op2 .add .r5 .r5 .sl .id, .strh .r5 .r0 830 .off, .strh .r7 .r0 958 .off,
  .ldrh .r1 .sp 192 .off, .ldrh .r2 .sp 448 .off, .ldrh .r3 .sp 704 .off, .ldrh .r4 .sp 960 .off, .ldrh .r5 .fp 192 .off,
  .ldrh .r6 .fp 448 .off, .ldrh .r7 .fp 704 .off, .op2 .add .r8 .r2 .r3 .id, .op1 (.lsr 1) .r8 .r8, .op2 .sub .r8 .r8 .r1 .id,
  .op2 .sub .r8 .r8 .r7 .id, .op2 .add .r9 .r4 .r5 .id, .op2 .sub .r9 .r9 .r1 (.lsl 1), .op2 .sub .r9 .r9 .r7 (.lsl 7),
  .op1 (.lsr 3) .r9 .r9, .op2 .sub .r9 .r9 .r8 .id, .op2 .mul .r9 .r9 .lr .id, .op2 .sub .r8 .r8 .r9 .id, .op2 .sub .r2 .r2 .r3 .id,
  .op1 (.lsr 1) .r2 .r2, .op2 .sub .r3 .r4 .r5 .id, .op1 (.lsr 2) .r3 .r3, .op2 .sub .r3 .r3 .r2 .id, .op2 .mul .r3 .r3 .lr .id,
  .op2 .add .r4 .r7 .r7 (.lsl 3), .op2 .add .r4 .r4 .r9 .id, .op2 .add .r4 .r4 .r4 (.lsl 3), .op2 .add .r4 .r4 .r8 .id,
  .op2 .add .r4 .r4 .r4 (.lsl 3), .op2 .add .r4 .r4 .r1 .id, .op2 .sub .r4 .r6 .r4 .id, .op2 .mul .r4 .r4 .lr .id,
  .op2 .sub .r4 .r4 .r2 .id, .op1 (.lsr 3) .r4 .r4, .op2 .sub .r4 .r4 .r3 .id, .op2 .mul .r5 .r4 .ip .id, .op2 .sub .r6 .r3 .r4 .id,
  .op2 .sub .r3 .r2 .r6 .id, .op2 .sub .r3 .r3 .r5 .id, .ldrh .sl .r0 192 .off, .op2 .add .r1 .r1 .sl .id, .strh .r1 .r0 192 .off,
  .ldrh .sl .r0 320 .off, .op2 .add .r3 .r3 .sl .id, .strh .r3 .r0 320 .off, .ldrh .sl .r0 448 .off, .op2 .add .r8 .r8 .sl .id,
  .strh .r8 .r0 448 .off, .ldrh .sl .r0 576 .off, .op2 .add .r6 .r6 .sl .id, .strh .r6 .r0 576 .off, .ldrh .sl .r0 704 .off,
  .op2 .add .r9 .r9 .sl .id, .strh .r9 .r0 704 .off, .ldrh .sl .r0 832 .off, .op2 .add .r5 .r5 .sl .id, .strh .r5 .r0 832 .off,
  .strh .r7 .r0 960 .off, .ldrh .r1 .sp 194 .off, .ldrh .r2 .sp 450 .off, .ldrh .r3 .sp 706 .off, .ldrh .r4 .sp 962 .off,
  .ldrh .r5 .fp 194 .off, .ldrh .r6 .fp 450 .off, .ldrh .r7 .fp 706 .off, .op2 .add .r8 .r2 .r3 .id, .op1 (.lsr 1) .r8 .r8,
  .op2 .sub .r8 .r8 .r1 .id, .op2 .sub .r8 .r8 .r7 .id, .op2 .add .r9 .r4 .r5 .id, .op2 .sub .r9 .r9 .r1 (.lsl 1),
  .op2 .sub .r9 .r9 .r7 (.lsl 7), .op1 (.lsr 3) .r9 .r9, .op2 .sub .r9 .r9 .r8 .id, .op2 .mul .r9 .r9 .lr .id, .op2 .sub .r8 .r8 .r9 .id,
  .op2 .sub .r2 .r2 .r3 .id, .op1 (.lsr 1) .r2 .r2, .op2 .sub .r3 .r4 .r5 .id, .op1 (.lsr 2) .r3 .r3, .op2 .sub .r3 .r3 .r2 .id,
  .op2 .mul .r3 .r3 .lr .id, .op2 .add .r4 .r7 .r7 (.lsl 3), .op2 .add .r4 .r4 .r9 .id, .op2 .add .r4 .r4 .r4 (.lsl 3),
  .op2 .add .r4 .r4 .r8 .id, .op2 .add .r4 .r4 .r4 (.lsl 3), .op2 .add .r4 .r4 .r1 .id, .op2 .sub .r4 .r6 .r4 .id,
  .op2 .mul .r4 .r4 .lr .id, .op2 .sub .r4 .r4 .r2 .id, .op1 (.lsr 3) .r4 .r4, .op2 .sub .r4 .r4 .r3 .id, .op2 .mul .r5 .r4 .ip .id,
  .op2 .sub .r6 .r3 .r4 .id, .op2 .sub .r3 .r2 .r6 .id, .op2 .sub .r3 .r3 .r5 .id, .ldrh .sl .r0 194 .off, .op2 .add .r1 .r1 .sl .id,
  .strh .r1 .r0 194 .off, .ldrh .sl .r0 322 .off, .op2 .add .r3 .r3 .sl .id, .strh .r3 .r0 322 .off, .ldrh .sl .r0 450 .off,
  .op2 .add .r8 .r8 .sl .id, .strh .r8 .r0 450 .off, .ldrh .sl .r0 578 .off, .op2 .add .r6 .r6 .sl .id, .strh .r6 .r0 578 .off,
  .ldrh .sl .r0 706 .off, .op2 .add .r9 .r9 .sl .id, .strh .r9 .r0 706 .off, .ldrh .sl .r0 834 .off, .op2 .add .r5 .r5 .sl .id,
  .strh .r5 .r0 834 .off]

/-- mult_toom4_256_16.s:8252-8371 -/
def polymul_asm_66 : List Ins := [
  .strh .r7 .r0 962 .off, .ldrh .r1 .sp 196 .off, .ldrh .r2 .sp 452 .off, .ldrh .r3 .sp 708 .off, .ldrh .r4 .sp 964 .off,
  .ldrh .r5 .fp 196 .off, .ldrh .r6 .fp 452 .off, .ldrh .r7 .fp 708 .off, .op2 .add .r8 .r2 .r3 .id, .op1 (.lsr 1) .r8 .r8,
  .op2 .sub .r8 .r8 .r1 .id, .op2 .sub .r8 .r8 .r7 .id, .op2 .add .r9 .r4 .r5 .id, .op2 .sub .r9 .r9 .r1 (.lsl 1),
  .op2 .sub .r9 .r9 .r7 (.lsl 7), .op1 (.lsr 3) .r9 .r9, .op2 .sub .r9 .r9 .r8 .id, .op2 .mul .r9 .r9 .lr .id, .op2 .sub .r8 .r8 .r9 .id,
  .op2 .sub .r2 .r2 .r3 .id, .op1 (.lsr 1) .r2 .r2, .op2 .sub .r3 .r4 .r5 .id, .op1 (.lsr 2) .r3 .r3, .op2 .sub .r3 .r3 .r2 .id,
  .op2 .mul .r3 .r3 .lr .id, .op2 .add .r4 .r7 .r7 (.lsl 3), .op2 .add .r4 .r4 .r9 .id, .op2 .add .r4 .r4 .r4 (.lsl 3),
  .op2 .add .r4 .r4 .r8 .id, .op2 .add .r4 .r4 .r4 (.lsl 3), .op2 .add .r4 .r4 .r1 .id, .op2 .sub .r4 .r6 .r4 .id,
  .op2 .mul .r4 .r4 .lr .id, .op2 .sub .r4 .r4 .r2 .id, .op1 (.lsr 3) .r4 .r4, .op2 .sub .r4 .r4 .r3 .id, .op2 .mul .r5 .r4 .ip .id,
  .op2 .sub .r6 .r3 .r4 .id, .op2 .sub .r3 .r2 .r6 .id, .op2 .sub .r3 .r3 .r5 .id, .ldrh .sl .r0 196 .off, .op2 .add .r1 .r1 .sl .id,
  .strh .r1 .r0 196 .off, .ldrh .sl .r0 324 .off, .op2 .add .r3 .r3 .sl .id, .strh .r3 .r0 324 .off, .ldrh .sl .r0 452 .off,
  .op2 .add .r8 .r8 .sl .id, .strh .r8 .r0 452 .off, .ldrh .sl .r0 580 .off, .op2 .add .r6 .r6 .sl .id, .strh .r6 .r0 580 .off,
  .ldrh .sl .r0 708 .off, .op2 .add .r9 .r9 .sl .id, .strh .r9 .r0 708 .off, .ldrh .sl .r0 836 .off, .op2 .add .r5 .r5 .sl .id,
  .strh .r5 .r0 836 .off, .strh .r7 .r0 964 .off, .ldrh .r1 .sp 198 .off, .ldrh .r2 .sp 454 .off, .ldrh .r3 .sp 710 .off,
  .ldrh .r4 .sp 966 .off, .ldrh .r5 .fp 198 .off, .ldrh .r6 .fp 454 .off, .ldrh .r7 .fp 710 .off, .op2 .add .r8 .r2 .r3 .id,
  .op1 (.lsr 1) .r8 .r8, .op2 .sub .r8 .r8 .r1 .id, .op2 .sub .r8 .r8 .r7 .id, .op2 .add .r9 .r4 .r5 .id, .op2 .sub .r9 .r9 .r1 (.lsl 1),
  .op2 .sub .r9 .r9 .r7 (.lsl 7), .op1 (.lsr 3) .r9 .r9, .op2 .sub .r9 .r9 .r8 .id, .op2 .mul .r9 .r9 .lr .id, .op2 .sub .r8 .r8 .r9 .id,
  .op2 .sub .r2 .r2 .r3 .id, .op1 (.lsr 1) .r2 .r2, .op2 .sub .r3 .r4 .r5 .id, .op1 (.lsr 2) .r3 .r3, .op2 .sub .r3 .r3 .r2 .id,
  .op2 .mul .r3 .r3 .lr .id, .op2 .add .r4 .r7 .r7 (.lsl 3), .op2 .add .r4 .r4 .r9 .id, .op2 .add .r4 .r4 .r4 (.lsl 3),
  .op2 .add .r4 .r4 .r8 .id, .op2 .add .r4 .r4 .r4 (.lsl 3), .op2 .add .r4 .r4 .r1 .id, .op2 .sub .r4 .r6 .r4 .id,
  .op2 .mul .r4 .r4 .lr .id, .op2 .sub .r4 .r4 .r2 .id, .op1 (.lsr 3) .r4 .r4, .op2 .sub .r4 .r4 .r3 .id, .op2 .mul .r5 .r4 .ip .id,
  .op2 .sub .r6 .r3 .r4 .id, .op2 .sub .r3 .r2 .r6 .id, .op2 .sub .r3 .r3 .r5 .id, .ldrh .sl .r0 198 .off, .op2 .add .r1 .r1 .sl .id,
  .strh .r1 .r0 198 .off, .ldrh .sl .r0 326 .off, .op2 .add .r3 .r3 .sl .id, .strh .r3 .r0 326 .off, .ldrh .sl .r0 454 .off,
  .op2 .add .r8 .r8 .sl .id, .strh .r8 .r0 454 .off, .ldrh .sl .r0 582 .off, .op2 .add .r6 .r6 .sl .id, .strh .r6 .r0 582 .off,
  .ldrh .sl .r0 710 .off, .op2 .add .r9 .r9 .sl .id, .strh .r9 .r0 710 .off, .ldrh .sl .r0 838 .off, .op2 .add .r5 .r5 .sl .id,
  .strh .r5 .r0 838 .off, .strh .r7 .r0 966 .off, .ldrh .r1 .sp 200 .off, .ldrh .r2 .sp 456 .off, .ldrh .r3 .sp 712 .off]

/-- mult_toom4_256_16.s:8372-8491 -/
def polymul_asm_67 : List Ins := [
  .ldrh .r4 .sp 968 .off, .ldrh .r5 .fp 200 .off, .ldrh .r6 .fp 456 .off, .ldrh .r7 .fp 712 .off, .op2 .add .r8 .r2 .r3 .id,
  .op1 (.lsr 1) .r8 .r8, .op2 .sub .r8 .r8 .r1 .id, .op2 .sub .r8 .r8 .r7 .id, .op2 .add .r9 .r4 .r5 .id, .op2 .sub .r9 .r9 .r1 (.lsl 1),
  .op2 .sub .r9 .r9 .r7 (.lsl 7), .op1 (.lsr 3) .r9 .r9, .op2 .sub .r9 .r9 .r8 .id, .op2 .mul .r9 .r9 .lr .id, .op2 .sub .r8 .r8 .r9 .id,
  .op2 .sub .r2 .r2 .r3 .id, .op1 (.lsr 1) .r2 .r2, .op2 .sub .r3 .r4 .r5 .id, .op1 (.lsr 2) .r3 .r3, .op2 .sub .r3 .r3 .r2 .id,
  .op2 .mul .r3 .r3 .lr .id, .op2 .add .r4 .r7 .r7 (.lsl 3), .op2 .add .r4 .r4 .r9 .id, .op2 .add .r4 .r4 .r4 (.lsl 3),
  .op2 .add .r4 .r4 .r8 .id, .op2 .add .r4 .r4 .r4 (.lsl 3), .op2 .add .r4 .r4 .r1 .id, .op2 .sub .r4 .r6 .r4 .id,
  .op2 .mul .r4 .r4 .lr .id, .op2 .sub .r4 .r4 .r2 .id, .op1 (.lsr 3) .r4 .r4, .op2 .sub .r4 .r4 .r3 .id, .op2 .mul .r5 .r4 .ip .id,
  .op2 .sub .r6 .r3 .r4 .id, .op2 .sub .r3 .r2 .r6 .id, .op2 .sub .r3 .r3 .r5 .id, .ldrh .sl .r0 200 .off, .op2 .add .r1 .r1 .sl .id,
  .strh .r1 .r0 200 .off, .ldrh .sl .r0 328 .off, .op2 .add .r3 .r3 .sl .id, .strh .r3 .r0 328 .off, .ldrh .sl .r0 456 .off,
  .op2 .add .r8 .r8 .sl .id, .strh .r8 .r0 456 .off, .ldrh .sl .r0 584 .off, .op2 .add .r6 .r6 .sl .id, .strh .r6 .r0 584 .off,
  .ldrh .sl .r0 712 .off, .op2 .add .r9 .r9 .sl .id, .strh .r9 .r0 712 .off, .ldrh .sl .r0 840 .off, .op2 .add .r5 .r5 .sl .id,
  .strh .r5 .r0 840 .off, .strh .r7 .r0 968 .off, .ldrh .r1 .sp 202 .off, .ldrh .r2 .sp 458 .off, .ldrh .r3 .sp 714 .off,
  .ldrh .r4 .sp 970 .off, .ldrh .r5 .fp 202 .off, .ldrh .r6 .fp 458 .off, .ldrh .r7 .fp 714 .off, .op2 .add .r8 .r2 .r3 .id,
  .op1 (.lsr 1) .r8 .r8, .op2 .sub .r8 .r8 .r1 .id, .op2 .sub .r8 .r8 .r7 .id, .op2 .add .r9 .r4 .r5 .id, .op2 .sub .r9 .r9 .r1 (.lsl 1),
  .op2 .sub .r9 .r9 .r7 (.lsl 7), .op1 (.lsr 3) .r9 .r9, .op2 .sub .r9 .r9 .r8 .id, .op2 .mul .r9 .r9 .lr .id, .op2 .sub .r8 .r8 .r9 .id,
  .op2 .sub .r2 .r2 .r3 .id, .op1 (.lsr 1) .r2 .r2, .op2 .sub .r3 .r4 .r5 .id, .op1 (.lsr 2) .r3 .r3, .op2 .sub .r3 .r3 .r2 .id,
  .op2 .mul .r3 .r3 .lr .id, .op2 .add .r4 .r7 .r7 (.lsl 3), .op2 .add .r4 .r4 .r9 .id, .op2 .add .r4 .r4 .r4 (.lsl 3),
  .op2 .add .r4 .r4 .r8 .id, .op2 .add .r4 .r4 .r4 (.lsl 3), .op2 .add .r4 .r4 .r1 .id, .op2 .sub .r4 .r6 .r4 .id,
  .op2 .mul .r4 .r4 .lr .id, .op2 .sub .r4 .r4 .r2 .id, .op1 (.lsr 3) .r4 .r4, .op2 .sub .r4 .r4 .r3 .id, .op2 .mul .r5 .r4 .ip .id,
  .op2 .sub .r6 .r3 .r4 .id, .op2 .sub .r3 .r2 .r6 .id, .op2 .sub .r3 .r3 .r5 .id, .ldrh .sl .r0 202 .off, .op2 .add .r1 .r1 .sl .id,
  .strh .r1 .r0 202 .off, .ldrh .sl .r0 330 .off, .op2 .add .r3 .r3 .sl .id, .strh .r3 .r0 330 .off, .ldrh .sl .r0 458 .off,
  .op2 .add .r8 .r8 .sl .id, .strh .r8 .r0 458 .off, .ldrh .sl .r0 586 .off, .op2 .add .r6 .r6 .sl .id, .strh .r6 .r0 586 .off,
  .ldrh .sl .r0 714 .off, .op2 .add .r9 .r9 .sl .id, .strh .r9 .r0 714 .off, .ldrh .sl .r0 842 .off, .op2 .add .r5 .r5 .sl .id,
  .strh .r5 .r0 842 .off, .strh .r7 .r0 970 .off, .ldrh .r1 .sp 204 .off, .ldrh .r2 .sp 460 .off, .ldrh .r3 .sp 716 .off,
  .ldrh .r4 .sp 972 .off, .ldrh .r5 .fp 204 .off, .ldrh .r6 .fp 460 .off, .ldrh .r7 .fp 716 .off]

/-- mult_toom4_256_16.s:8492-8611 -/
def polymul_asm_68 : List Ins := [
  .op2 .add .r8 .r2 .r3 .id, .op1 (.lsr 1) .r8 .r8, .op2 .sub .r8 .r8 .r1 .id, .op2 .sub .r8 .r8 .r7 .id, .op2 .add .r9 .r4 .r5 .id,
  .op2 .sub .r9 .r9 .r1 (.lsl 1), .op2 .sub .r9 .r9 .r7 (.lsl 7), .op1 (.lsr 3) .r9 .r9, .op2 .sub .r9 .r9 .r8 .id,
  .op2 .mul .r9 .r9 .lr .id, .op2 .sub .r8 .r8 .r9 .id, .op2 .sub .r2 .r2 .r3 .id, .op1 (.lsr 1) .r2 .r2, .op2 .sub .r3 .r4 .r5 .id,
  .op1 (.lsr 2) .r3 .r3, .op2 .sub .r3 .r3 .r2 .id, .op2 .mul .r3 .r3 .lr .id, .op2 .add .r4 .r7 .r7 (.lsl 3), .op2 .add .r4 .r4 .r9 .id,
  .op2 .add .r4 .r4 .r4 (.lsl 3), .op2 .add .r4 .r4 .r8 .id, .op2 .add .r4 .r4 .r4 (.lsl 3), .op2 .add .r4 .r4 .r1 .id,
  .op2 .sub .r4 .r6 .r4 .id, .op2 .mul .r4 .r4 .lr .id, .op2 .sub .r4 .r4 .r2 .id, .op1 (.lsr 3) .r4 .r4, .op2 .sub .r4 .r4 .r3 .id,
  .op2 .mul .r5 .r4 .ip .id, .op2 .sub .r6 .r3 .r4 .id, .op2 .sub .r3 .r2 .r6 .id, .op2 .sub .r3 .r3 .r5 .id, .ldrh .sl .r0 204 .off,
  .op2 .add .r1 .r1 .sl .id, .strh .r1 .r0 204 .off, .ldrh .sl .r0 332 .off, .op2 .add .r3 .r3 .sl .id, .strh .r3 .r0 332 .off,
  .ldrh .sl .r0 460 .off, .op2 .add .r8 .r8 .sl .id, .strh .r8 .r0 460 .off, .ldrh .sl .r0 588 .off, .op2 .add .r6 .r6 .sl .id,
  .strh .r6 .r0 588 .off, .ldrh .sl .r0 716 .off, .op2 .add .r9 .r9 .sl .id, .strh .r9 .r0 716 .off, .ldrh .sl .r0 844 .off,
  .op2 .add .r5 .r5 .sl .id, .strh .r5 .r0 844 .off, .strh .r7 .r0 972 .off, .ldrh .r1 .sp 206 .off, .ldrh .r2 .sp 462 .off,
  .ldrh .r3 .sp 718 .off, .ldrh .r4 .sp 974 .off, .ldrh .r5 .fp 206 .off, .ldrh .r6 .fp 462 .off, .ldrh .r7 .fp 718 .off,
  .op2 .add .r8 .r2 .r3 .id, .op1 (.lsr 1) .r8 .r8, .op2 .sub .r8 .r8 .r1 .id, .op2 .sub .r8 .r8 .r7 .id, .op2 .add .r9 .r4 .r5 .id,
  .op2 .sub .r9 .r9 .r1 (.lsl 1), .op2 .sub .r9 .r9 .r7 (.lsl 7), .op1 (.lsr 3) .r9 .r9, .op2 .sub .r9 .r9 .r8 .id,
  .op2 .mul .r9 .r9 .lr .id, .op2 .sub .r8 .r8 .r9 .id, .op2 .sub .r2 .r2 .r3 .id, .op1 (.lsr 1) .r2 .r2, .op2 .sub .r3 .r4 .r5 .id,
  .op1 (.lsr 2) .r3 .r3, .op2 .sub .r3 .r3 .r2 .id, .op2 .mul .r3 .r3 .lr .id, .op2 .add .r4 .r7 .r7 (.lsl 3), .op2 .add .r4 .r4 .r9 .id,
  .op2 .add .r4 .r4 .r4 (.lsl 3), .op2 .add .r4 .r4 .r8 .id, .op2 .add .r4 .r4 .r4 (.lsl 3), .op2 .add .r4 .r4 .r1 .id,
  .op2 .sub .r4 .r6 .r4 .id, .op2 .mul .r4 .r4 .lr .id, .op2 .sub .r4 .r4 .r2 .id, .op1 (.lsr 3) .r4 .r4, .op2 .sub .r4 .r4 .r3 .id,
  .op2 .mul .r5 .r4 .ip .id, .op2 .sub .r6 .r3 .r4 .id, .op2 .sub .r3 .r2 .r6 .id, .op2 .sub .r3 .r3 .r5 .id, .ldrh .sl .r0 206 .off,
  .op2 .add .r1 .r1 .sl .id, .strh .r1 .r0 206 .off, .ldrh .sl .r0 334 .off, .op2 .add .r3 .r3 .sl .id, .strh .r3 .r0 334 .off,
  .ldrh .sl .r0 462 .off, .op2 .add .r8 .r8 .sl .id, .strh .r8 .r0 462 .off, .ldrh .sl .r0 590 .off, .op2 .add .r6 .r6 .sl .id,
  .strh .r6 .r0 590 .off, .ldrh .sl .r0 718 .off, .op2 .add .r9 .r9 .sl .id, .strh .r9 .r0 718 .off, .ldrh .sl .r0 846 .off,
  .op2 .add .r5 .r5 .sl .id, .strh .r5 .r0 846 .off, .strh .r7 .r0 974 .off, .ldrh .r1 .sp 208 .off, .ldrh .r2 .sp 464 .off,
  .ldrh .r3 .sp 720 .off, .ldrh .r4 .sp 976 .off, .ldrh .r5 .fp 208 .off, .ldrh .r6 .fp 464 .off, .ldrh .r7 .fp 720 .off,
  .op2 .add .r8 .r2 .r3 .id, .op1 (.lsr 1) .r8 .r8, .op2 .sub .r8 .r8 .r1 .id, .op2 .sub .r8 .r8 .r7 .id]

/-- mult_toom4_256_16.s:8612-8731 -/
def polymul_asm_69 : List Ins := [
  .op2 .add .r9 .r4 .r5 .id, .op2 .sub .r9 .r9 .r1 (.lsl 1), .op2 .sub .r9 .r9 .r7 (.lsl 7), .op1 (.lsr 3) .r9 .r9,
  .op2 .sub .r9 .r9 .r8 .id, .op2 .mul .r9 .r9 .lr .id, .op2 .sub .r8 .r8 .r9 .id, .op2 .sub .r2 .r2 .r3 .id, .op1 (.lsr 1) .r2 .r2,
  .op2 .sub .r3 .r4 .r5 .id, .op1 (.lsr 2) .r3 .r3, .op2 .sub .r3 .r3 .r2 .id, .op2 .mul .r3 .r3 .lr .id, .op2 .add .r4 .r7 .r7 (.lsl 3),
  .op2 .add .r4 .r4 .r9 .id, .op2 .add .r4 .r4 .r4 (.lsl 3), .op2 .add .r4 .r4 .r8 .id, .op2 .add .r4 .r4 .r4 (.lsl 3),
  .op2 .add .r4 .r4 .r1 .id, .op2 .sub .r4 .r6 .r4 .id, .op2 .mul .r4 .r4 .lr .id, .op2 .sub .r4 .r4 .r2 .id, .op1 (.lsr 3) .r4 .r4,
  .op2 .sub .r4 .r4 .r3 .id, .op2 .mul .r5 .r4 .ip .id, .op2 .sub .r6 .r3 .r4 .id, .op2 .sub .r3 .r2 .r6 .id, .op2 .sub .r3 .r3 .r5 .id,
  .ldrh .sl .r0 208 .off, .op2 .add .r1 .r1 .sl .id, .strh .r1 .r0 208 .off, .ldrh .sl .r0 336 .off, .op2 .add .r3 .r3 .sl .id,
  .strh .r3 .r0 336 .off, .ldrh .sl .r0 464 .off, .op2 .add .r8 .r8 .sl .id, .strh .r8 .r0 464 .off, .ldrh .sl .r0 592 .off,
  .op2 .add .r6 .r6 .sl .id, .strh .r6 .r0 592 .off, .ldrh .sl .r0 720 .off, .op2 .add .r9 .r9 .sl .id, .strh .r9 .r0 720 .off,
  .ldrh .sl .r0 848 .off, .op2 .add .r5 .r5 .sl .id, .strh .r5 .r0 848 .off, .strh .r7 .r0 976 .off, .ldrh .r1 .sp 210 .off,
  .ldrh .r2 .sp 466 .off, .ldrh .r3 .sp 722 .off, .ldrh .r4 .sp 978 .off, .ldrh .r5 .fp 210 .off, .ldrh .r6 .fp 466 .off,
  .ldrh .r7 .fp 722 .off, .op2 .add .r8 .r2 .r3 .id, .op1 (.lsr 1) .r8 .r8, .op2 .sub .r8 .r8 .r1 .id, .op2 .sub .r8 .r8 .r7 .id,
  .op2 .add .r9 .r4 .r5 .id, .op2 .sub .r9 .r9 .r1 (.lsl 1), .op2 .sub .r9 .r9 .r7 (.lsl 7), .op1 (.lsr 3) .r9 .r9,
  .op2 .sub .r9 .r9 .r8 .id, .op2 .mul .r9 .r9 .lr .id, .op2 .sub .r8 .r8 .r9 .id, .op2 .sub .r2 .r2 .r3 .id, .op1 (.lsr 1) .r2 .r2,
  .op2 .sub .r3 .r4 .r5 .id, .op1 (.lsr 2) .r3 .r3, .op2 .sub .r3 .r3 .r2 .id, .op2 .mul .r3 .r3 .lr .id, .op2 .add .r4 .r7 .r7 (.lsl 3),
  .op2 .add .r4 .r4 .r9 .id, .op2 .add .r4 .r4 .r4 (.lsl 3), .op2 .add .r4 .r4 .r8 .id, .op2 .add .r4 .r4 .r4 (.lsl 3),
  .op2 .add .r4 .r4 .r1 .id, .op2 .sub .r4 .r6 .r4 .id, .op2 .mul .r4 .r4 .lr .id, .op2 .sub .r4 .r4 .r2 .id, .op1 (.lsr 3) .r4 .r4,
  .op2 .sub .r4 .r4 .r3 .id, .op2 .mul .r5 .r4 .ip .id, .op2 .sub .r6 .r3 .r4 .id, .op2 .sub .r3 .r2 .r6 .id, .op2 .sub .r3 .r3 .r5 .id,
  .ldrh .sl .r0 210 .off, .op2 .add .r1 .r1 .sl .id, .strh .r1 .r0 210 .off, .ldrh .sl .r0 338 .off, .op2 .add .r3 .r3 .sl .id,
  .strh .r3 .r0 338 .off, .ldrh .sl .r0 466 .off, .op2 .add .r8 .r8 .sl .id, .strh .r8 .r0 466 .off, .ldrh .sl .r0 594 .off,
  .op2 .add .r6 .r6 .sl .id, .strh .r6 .r0 594 .off, .ldrh .sl .r0 722 .off, .op2 .add .r9 .r9 .sl .id, .strh .r9 .r0 722 .off,
  .ldrh .sl .r0 850 .off, .op2 .add .r5 .r5 .sl .id, .strh .r5 .r0 850 .off, .strh .r7 .r0 978 .off, .ldrh .r1 .sp 212 .off,
  .ldrh .r2 .sp 468 .off, .ldrh .r3 .sp 724 .off, .ldrh .r4 .sp 980 .off, .ldrh .r5 .fp 212 .off, .ldrh .r6 .fp 468 .off,
  .ldrh .r7 .fp 724 .off, .op2 .add .r8 .r2 .r3 .id, .op1 (.lsr 1) .r8 .r8, .op2 .sub .r8 .r8 .r1 .id, .op2 .sub .r8 .r8 .r7 .id,
  .op2 .add .r9 .r4 .r5 .id, .op2 .sub .r9 .r9 .r1 (.lsl 1), .op2 .sub .r9 .r9 .r7 (.lsl 7), .op1 (.lsr 3) .r9 .r9]

/-- mult_toom4_256_16.s:8732-8851 -/
def polymul_asm_70 : List Ins := [
  .op2 .sub .r9 .r9 .r8 .id, .op2 .mul .r9 .r9 .lr .id, .op2 .sub .r8 .r8 .r9 .id, .op2 .sub .r2 .r2 .r3 .id, .op1 (.lsr 1) .r2 .r2,
  .op2 .sub .r3 .r4 .r5 .id, .op1 (.lsr 2) .r3 .r3, .op2 .sub .r3 .r3 .r2 .id, .op2 .mul .r3 .r3 .lr .id, .op2 .add .r4 .r7 .r7 (.lsl 3),
  .op2 .add .r4 .r4 .r9 .id, .op2 .add .r4 .r4 .r4 (.lsl 3), .op2 .add .r4 .r4 .r8 .id, .op2 .add .r4 .r4 .r4 (.lsl 3),
  .op2 .add .r4 .r4 .r1 .id, .op2 .sub .r4 .r6 .r4 .id, .op2 .mul .r4 .r4 .lr .id, .op2 .sub .r4 .r4 .r2 .id, .op1 (.lsr 3) .r4 .r4,
  .op2 .sub .r4 .r4 .r3 .id, .op2 .mul .r5 .r4 .ip .id, .op2 .sub .r6 .r3 .r4 .id, .op2 .sub .r3 .r2 .r6 .id, .op2 .sub .r3 .r3 .r5 .id,
  .ldrh .sl .r0 212 .off, .op2 .add .r1 .r1 .sl .id, .strh .r1 .r0 212 .off, .ldrh .sl .r0 340 .off, .op2 .add .r3 .r3 .sl .id,
  .strh .r3 .r0 340 .off, .ldrh .sl .r0 468 .off, .op2 .add .r8 .r8 .sl .id, .strh .r8 .r0 468 .off, .ldrh .sl .r0 596 .off,
  .op2 .add .r6 .r6 .sl .id, .strh .r6 .r0 596 .off, .ldrh .sl .r0 724 .off, .op2 .add .r9 .r9 .sl .id, .strh .r9 .r0 724 .off,
  .ldrh .sl .r0 852 .off, .op2 .add .r5 .r5 .sl .id, .strh .r5 .r0 852 .off, .strh .r7 .r0 980 .off, .ldrh .r1 .sp 214 .off,
  .ldrh .r2 .sp 470 .off, .ldrh .r3 .sp 726 .off, .ldrh .r4 .sp 982 .off, .ldrh .r5 .fp 214 .off, .ldrh .r6 .fp 470 .off,
  .ldrh .r7 .fp 726 .off, .op2 .add .r8 .r2 .r3 .id, .op1 (.lsr 1) .r8 .r8, .op2 .sub .r8 .r8 .r1 .id, .op2 .sub .r8 .r8 .r7 .id,
  .op2 .add .r9 .r4 .r5 .id, .op2 .sub .r9 .r9 .r1 (.lsl 1), .op2 .sub .r9 .r9 .r7 (.lsl 7), .op1 (.lsr 3) .r9 .r9,
  .op2 .sub .r9 .r9 .r8 .id, .op2 .mul .r9 .r9 .lr .id, .op2 .sub .r8 .r8 .r9 .id, .op2 .sub .r2 .r2 .r3 .id, .op1 (.lsr 1) .r2 .r2,
  .op2 .sub .r3 .r4 .r5 .id, .op1 (.lsr 2) .r3 .r3, .op2 .sub .r3 .r3 .r2 .id, .op2 .mul .r3 .r3 .lr .id, .op2 .add .r4 .r7 .r7 (.lsl 3),
  .op2 .add .r4 .r4 .r9 .id, .op2 .add .r4 .r4 .r4 (.lsl 3), .op2 .add .r4 .r4 .r8 .id, .op2 .add .r4 .r4 .r4 (.lsl 3),
  .op2 .add .r4 .r4 .r1 .id, .op2 .sub .r4 .r6 .r4 .id, .op2 .mul .r4 .r4 .lr .id, .op2 .sub .r4 .r4 .r2 .id, .op1 (.lsr 3) .r4 .r4,
  .op2 .sub .r4 .r4 .r3 .id, .op2 .mul .r5 .r4 .ip .id, .op2 .sub .r6 .r3 .r4 .id, .op2 .sub .r3 .r2 .r6 .id, .op2 .sub .r3 .r3 .r5 .id,
  .ldrh .sl .r0 214 .off, .op2 .add .r1 .r1 .sl .id, .strh .r1 .r0 214 .off, .ldrh .sl .r0 342 .off, .op2 .add .r3 .r3 .sl .id,
  .strh .r3 .r0 342 .off, .ldrh .sl .r0 470 .off, .op2 .add .r8 .r8 .sl .id, .strh .r8 .r0 470 .off, .ldrh .sl .r0 598 .off,
  .op2 .add .r6 .r6 .sl .id, .strh .r6 .r0 598 .off, .ldrh .sl .r0 726 .off, .op2 .add .r9 .r9 .sl .id, .strh .r9 .r0 726 .off,
  .ldrh .sl .r0 854 .off, .op2 .add .r5 .r5 .sl .id, .strh .r5 .r0 854 .off, .strh .r7 .r0 982 .off, .ldrh .r1 .sp 216 .off,
  .ldrh .r2 .sp 472 .off, .ldrh .r3 .sp 728 .off, .ldrh .r4 .sp 984 .off, .ldrh .r5 .fp 216 .off, .ldrh .r6 .fp 472 .off,
  .ldrh .r7 .fp 728 .off, .op2 .add .r8 .r2 .r3 .id, .op1 (.lsr 1) .r8 .r8, .op2 .sub .r8 .r8 .r1 .id, .op2 .sub .r8 .r8 .r7 .id,
  .op2 .add .r9 .r4 .r5 .id, .op2 .sub .r9 .r9 .r1 (.lsl 1), .op2 .sub .r9 .r9 .r7 (.lsl 7), .op1 (.lsr 3) .r9 .r9,
  .op2 .sub .r9 .r9 .r8 .id, .op2 .mul .r9 .r9 .lr .id, .op2 .sub .r8 .r8 .r9 .id, .op2 .sub .r2 .r2 .r3 .id]

/-- mult_toom4_256_16.s:8852-8971 -/
def polymul_asm_71 : List Ins := [
  .op1 (.lsr 1) .r2 .r2, .op2 .sub .r3 .r4 .r5 .id, .op1 (.lsr 2) .r3 .r3, .op2 .sub .r3 .r3 .r2 .id, .op2 .mul .r3 .r3 .lr .id,
  .op2 .add .r4 .r7 .r7 (.lsl 3), .op2 .add .r4 .r4 .r9 .id, .op2 .add .r4 .r4 .r4 (.lsl 3), .op2 .add .r4 .r4 .r8 .id,
  .op2 .add .r4 .r4 .r4 (.lsl 3), .op2 .add .r4 .r4 .r1 .id, .op2 .sub .r4 .r6 .r4 .id, .op2 .mul .r4 .r4 .lr .id,
  .op2 .sub .r4 .r4 .r2 .id, .op1 (.lsr 3) .r4 .r4, .op2 .sub .r4 .r4 .r3 .id, .op2 .mul .r5 .r4 .ip .id, .op2 .sub .r6 .r3 .r4 .id,
  .op2 .sub .r3 .r2 .r6 .id, .op2 .sub .r3 .r3 .r5 .id, .ldrh .sl .r0 216 .off, .op2 .add .r1 .r1 .sl .id, .strh .r1 .r0 216 .off,
  .ldrh .sl .r0 344 .off, .op2 .add .r3 .r3 .sl .id, .strh .r3 .r0 344 .off, .ldrh .sl .r0 472 .off, .op2 .add .r8 .r8 .sl .id,
  .strh .r8 .r0 472 .off, .ldrh .sl .r0 600 .off, .op2 .add .r6 .r6 .sl .id, .strh .r6 .r0 600 .off, .ldrh .sl .r0 728 .off,
  .op2 .add .r9 .r9 .sl .id, .strh .r9 .r0 728 .off, .ldrh .sl .r0 856 .off, .op2 .add .r5 .r5 .sl .id, .strh .r5 .r0 856 .off,
  .strh .r7 .r0 984 .off, .ldrh .r1 .sp 218 .off, .ldrh .r2 .sp 474 .off, .ldrh .r3 .sp 730 .off, .ldrh .r4 .sp 986 .off,
  .ldrh .r5 .fp 218 .off, .ldrh .r6 .fp 474 .off, .ldrh .r7 .fp 730 .off, .op2 .add .r8 .r2 .r3 .id, .op1 (.lsr 1) .r8 .r8,
  .op2 .sub .r8 .r8 .r1 .id, .op2 .sub .r8 .r8 .r7 .id, .op2 .add .r9 .r4 .r5 .id, .op2 .sub .r9 .r9 .r1 (.lsl 1),
  .op2 .sub .r9 .r9 .r7 (.lsl 7), .op1 (.lsr 3) .r9 .r9, .op2 .sub .r9 .r9 .r8 .id, .op2 .mul .r9 .r9 .lr .id, .op2 .sub .r8 .r8 .r9 .id,
  .op2 .sub .r2 .r2 .r3 .id, .op1 (.lsr 1) .r2 .r2, .op2 .sub .r3 .r4 .r5 .id, .op1 (.lsr 2) .r3 .r3, .op2 .sub .r3 .r3 .r2 .id,
  .op2 .mul .r3 .r3 .lr .id, .op2 .add .r4 .r7 .r7 (.lsl 3), .op2 .add .r4 .r4 .r9 .id, .op2 .add .r4 .r4 .r4 (.lsl 3),
  .op2 .add .r4 .r4 .r8 .id, .op2 .add .r4 .r4 .r4 (.lsl 3), .op2 .add .r4 .r4 .r1 .id, .op2 .sub .r4 .r6 .r4 .id,
  .op2 .mul .r4 .r4 .lr .id, .op2 .sub .r4 .r4 .r2 .id, .op1 (.lsr 3) .r4 .r4, .op2 .sub .r4 .r4 .r3 .id, .op2 .mul .r5 .r4 .ip .id,
  .op2 .sub .r6 .r3 .r4 .id, .op2 .sub .r3 .r2 .r6 .id, .op2 .sub .r3 .r3 .r5 .id, .ldrh .sl .r0 218 .off, .op2 .add .r1 .r1 .sl .id,
  .strh .r1 .r0 218 .off, .ldrh .sl .r0 346 .off, .op2 .add .r3 .r3 .sl .id, .strh .r3 .r0 346 .off, .ldrh .sl .r0 474 .off,
  .op2 .add .r8 .r8 .sl .id, .strh .r8 .r0 474 .off, .ldrh .sl .r0 602 .off, .op2 .add .r6 .r6 .sl .id, .strh .r6 .r0 602 .off,
  .ldrh .sl .r0 730 .off, .op2 .add .r9 .r9 .sl .id, .strh .r9 .r0 730 .off, .ldrh .sl .r0 858 .off, .op2 .add .r5 .r5 .sl .id,
  .strh .r5 .r0 858 .off, .strh .r7 .r0 986 .off, .ldrh .r1 .sp 220 .off, .ldrh .r2 .sp 476 .off, .ldrh .r3 .sp 732 .off,
  .ldrh .r4 .sp 988 .off, .ldrh .r5 .fp 220 .off, .ldrh .r6 .fp 476 .off, .ldrh .r7 .fp 732 .off, .op2 .add .r8 .r2 .r3 .id,
  .op1 (.lsr 1) .r8 .r8, .op2 .sub .r8 .r8 .r1 .id, .op2 .sub .r8 .r8 .r7 .id, .op2 .add .r9 .r4 .r5 .id, .op2 .sub .r9 .r9 .r1 (.lsl 1),
  .op2 .sub .r9 .r9 .r7 (.lsl 7), .op1 (.lsr 3) .r9 .r9, .op2 .sub .r9 .r9 .r8 .id, .op2 .mul .r9 .r9 .lr .id, .op2 .sub .r8 .r8 .r9 .id,
  .op2 .sub .r2 .r2 .r3 .id, .op1 (.lsr 1) .r2 .r2, .op2 .sub .r3 .r4 .r5 .id, .op1 (.lsr 2) .r3 .r3, .op2 .sub .r3 .r3 .r2 .id]

/-- mult_toom4_256_16.s:8972-9091 -/
def polymul_asm_72 : List Ins := [
  .op2 .mul .r3 .r3 .lr .id, .op2 .add .r4 .r7 .r7 (.lsl 3), .op2 .add .r4 .r4 .r9 .id, .op2 .add .r4 .r4 .r4 (.lsl 3),
  .op2 .add .r4 .r4 .r8 .id, .op2 .add .r4 .r4 .r4 (.lsl 3), .op2 .add .r4 .r4 .r1 .id, .op2 .sub .r4 .r6 .r4 .id,
  .op2 .mul .r4 .r4 .lr .id, .op2 .sub .r4 .r4 .r2 .id, .op1 (.lsr 3) .r4 .r4, .op2 .sub .r4 .r4 .r3 .id, .op2 .mul .r5 .r4 .ip .id,
  .op2 .sub .r6 .r3 .r4 .id, .op2 .sub .r3 .r2 .r6 .id, .op2 .sub .r3 .r3 .r5 .id, .ldrh .sl .r0 220 .off, .op2 .add .r1 .r1 .sl .id,
  .strh .r1 .r0 220 .off, .ldrh .sl .r0 348 .off, .op2 .add .r3 .r3 .sl .id, .strh .r3 .r0 348 .off, .ldrh .sl .r0 476 .off,
  .op2 .add .r8 .r8 .sl .id, .strh .r8 .r0 476 .off, .ldrh .sl .r0 604 .off, .op2 .add .r6 .r6 .sl .id, .strh .r6 .r0 604 .off,
  .ldrh .sl .r0 732 .off, .op2 .add .r9 .r9 .sl .id, .strh .r9 .r0 732 .off, .ldrh .sl .r0 860 .off, .op2 .add .r5 .r5 .sl .id,
  .strh .r5 .r0 860 .off, .strh .r7 .r0 988 .off, .ldrh .r1 .sp 222 .off, .ldrh .r2 .sp 478 .off, .ldrh .r3 .sp 734 .off,
  .ldrh .r4 .sp 990 .off, .ldrh .r5 .fp 222 .off, .ldrh .r6 .fp 478 .off, .ldrh .r7 .fp 734 .off, .op2 .add .r8 .r2 .r3 .id,
  .op1 (.lsr 1) .r8 .r8, .op2 .sub .r8 .r8 .r1 .id, .op2 .sub .r8 .r8 .r7 .id, .op2 .add .r9 .r4 .r5 .id, .op2 .sub .r9 .r9 .r1 (.lsl 1),
  .op2 .sub .r9 .r9 .r7 (.lsl 7), .op1 (.lsr 3) .r9 .r9, .op2 .sub .r9 .r9 .r8 .id, .op2 .mul .r9 .r9 .lr .id, .op2 .sub .r8 .r8 .r9 .id,
  .op2 .sub .r2 .r2 .r3 .id, .op1 (.lsr 1) .r2 .r2, .op2 .sub .r3 .r4 .r5 .id, .op1 (.lsr 2) .r3 .r3, .op2 .sub .r3 .r3 .r2 .id,
  .op2 .mul .r3 .r3 .lr .id, .op2 .add .r4 .r7 .r7 (.lsl 3), .op2 .add .r4 .r4 .r9 .id, .op2 .add .r4 .r4 .r4 (.lsl 3),
  .op2 .add .r4 .r4 .r8 .id, .op2 .add .r4 .r4 .r4 (.lsl 3), .op2 .add .r4 .r4 .r1 .id, .op2 .sub .r4 .r6 .r4 .id,
  .op2 .mul .r4 .r4 .lr .id, .op2 .sub .r4 .r4 .r2 .id, .op1 (.lsr 3) .r4 .r4, .op2 .sub .r4 .r4 .r3 .id, .op2 .mul .r5 .r4 .ip .id,
  .op2 .sub .r6 .r3 .r4 .id, .op2 .sub .r3 .r2 .r6 .id, .op2 .sub .r3 .r3 .r5 .id, .ldrh .sl .r0 222 .off, .op2 .add .r1 .r1 .sl .id,
  .strh .r1 .r0 222 .off, .ldrh .sl .r0 350 .off, .op2 .add .r3 .r3 .sl .id, .strh .r3 .r0 350 .off, .ldrh .sl .r0 478 .off,
  .op2 .add .r8 .r8 .sl .id, .strh .r8 .r0 478 .off, .ldrh .sl .r0 606 .off, .op2 .add .r6 .r6 .sl .id, .strh .r6 .r0 606 .off,
  .ldrh .sl .r0 734 .off, .op2 .add .r9 .r9 .sl .id, .strh .r9 .r0 734 .off, .ldrh .sl .r0 862 .off, .op2 .add .r5 .r5 .sl .id,
  .strh .r5 .r0 862 .off, .strh .r7 .r0 990 .off, .ldrh .r1 .sp 224 .off, .ldrh .r2 .sp 480 .off, .ldrh .r3 .sp 736 .off,
  .ldrh .r4 .sp 992 .off, .ldrh .r5 .fp 224 .off, .ldrh .r6 .fp 480 .off, .ldrh .r7 .fp 736 .off, .op2 .add .r8 .r2 .r3 .id,
  .op1 (.lsr 1) .r8 .r8, .op2 .sub .r8 .r8 .r1 .id, .op2 .sub .r8 .r8 .r7 .id, .op2 .add .r9 .r4 .r5 .id, .op2 .sub .r9 .r9 .r1 (.lsl 1),
  .op2 .sub .r9 .r9 .r7 (.lsl 7), .op1 (.lsr 3) .r9 .r9, .op2 .sub .r9 .r9 .r8 .id, .op2 .mul .r9 .r9 .lr .id, .op2 .sub .r8 .r8 .r9 .id,
  .op2 .sub .r2 .r2 .r3 .id, .op1 (.lsr 1) .r2 .r2, .op2 .sub .r3 .r4 .r5 .id, .op1 (.lsr 2) .r3 .r3, .op2 .sub .r3 .r3 .r2 .id,
  .op2 .mul .r3 .r3 .lr .id, .op2 .add .r4 .r7 .r7 (.lsl 3), .op2 .add .r4 .r4 .r9 .id, .op2 .add .r4 .r4 .r4 (.lsl 3)]

/-- mult_toom4_256_16.s:9092-9211 -/
def polymul_asm_73 : List Ins := [
  .op2 .add .r4 .r4 .r8 .id, .op2 .add .r4 .r4 .r4 (.lsl 3), .op2 .add .r4 .r4 .r1 .id, .op2 .sub .r4 .r6 .r4 .id,
  .op2 .mul .r4 .r4 .lr .id, .op2 .sub .r4 .r4 .r2 .id, .op1 (.lsr 3) .r4 .r4, .op2 .sub .r4 .r4 .r3 .id, .op2 .mul .r5 .r4 .ip .id,
  .op2 .sub .r6 .r3 .r4 .id, .op2 .sub .r3 .r2 .r6 .id, .op2 .sub .r3 .r3 .r5 .id, .ldrh .sl .r0 224 .off, .op2 .add .r1 .r1 .sl .id,
  .strh .r1 .r0 224 .off, .ldrh .sl .r0 352 .off, .op2 .add .r3 .r3 .sl .id, .strh .r3 .r0 352 .off, .ldrh .sl .r0 480 .off,
  .op2 .add .r8 .r8 .sl .id, .strh .r8 .r0 480 .off, .ldrh .sl .r0 608 .off, .op2 .add .r6 .r6 .sl .id, .strh .r6 .r0 608 .off,
  .ldrh .sl .r0 736 .off, .op2 .add .r9 .r9 .sl .id, .strh .r9 .r0 736 .off, .ldrh .sl .r0 864 .off, .op2 .add .r5 .r5 .sl .id,
  .strh .r5 .r0 864 .off, .strh .r7 .r0 992 .off, .ldrh .r1 .sp 226 .off, .ldrh .r2 .sp 482 .off, .ldrh .r3 .sp 738 .off,
  .ldrh .r4 .sp 994 .off, .ldrh .r5 .fp 226 .off, .ldrh .r6 .fp 482 .off, .ldrh .r7 .fp 738 .off, .op2 .add .r8 .r2 .r3 .id,
  .op1 (.lsr 1) .r8 .r8, .op2 .sub .r8 .r8 .r1 .id, .op2 .sub .r8 .r8 .r7 .id, .op2 .add .r9 .r4 .r5 .id, .op2 .sub .r9 .r9 .r1 (.lsl 1),
  .op2 .sub .r9 .r9 .r7 (.lsl 7), .op1 (.lsr 3) .r9 .r9, .op2 .sub .r9 .r9 .r8 .id, .op2 .mul .r9 .r9 .lr .id, .op2 .sub .r8 .r8 .r9 .id,
  .op2 .sub .r2 .r2 .r3 .id, .op1 (.lsr 1) .r2 .r2, .op2 .sub .r3 .r4 .r5 .id, .op1 (.lsr 2) .r3 .r3, .op2 .sub .r3 .r3 .r2 .id,
  .op2 .mul .r3 .r3 .lr .id, .op2 .add .r4 .r7 .r7 (.lsl 3), .op2 .add .r4 .r4 .r9 .id, .op2 .add .r4 .r4 .r4 (.lsl 3),
  .op2 .add .r4 .r4 .r8 .id, .op2 .add .r4 .r4 .r4 (.lsl 3), .op2 .add .r4 .r4 .r1 .id, .op2 .sub .r4 .r6 .r4 .id,
  .op2 .mul .r4 .r4 .lr .id, .op2 .sub .r4 .r4 .r2 .id, .op1 (.lsr 3) .r4 .r4, .op2 .sub .r4 .r4 .r3 .id, .op2 .mul .r5 .r4 .ip .id,
  .op2 .sub .r6 .r3 .r4 .id, .op2 .sub .r3 .r2 .r6 .id, .op2 .sub .r3 .r3 .r5 .id, .ldrh .sl .r0 226 .off, .op2 .add .r1 .r1 .sl .id,
  .strh .r1 .r0 226 .off, .ldrh .sl .r0 354 .off, .op2 .add .r3 .r3 .sl .id, .strh .r3 .r0 354 .off, .ldrh .sl .r0 482 .off,
  .op2 .add .r8 .r8 .sl .id, .strh .r8 .r0 482 .off, .ldrh .sl .r0 610 .off, .op2 .add .r6 .r6 .sl .id, .strh .r6 .r0 610 .off,
  .ldrh .sl .r0 738 .off, .op2 .add .r9 .r9 .sl .id, .strh .r9 .r0 738 .off, .ldrh .sl .r0 866 .off, .op2 .add .r5 .r5 .sl .id,
  .strh .r5 .r0 866 .off, .strh .r7 .r0 994 .off, .ldrh .r1 .sp 228 .off, .ldrh .r2 .sp 484 .off, .ldrh .r3 .sp 740 .off,
  .ldrh .r4 .sp 996 .off, .ldrh .r5 .fp 228 .off, .ldrh .r6 .fp 484 .off, .ldrh .r7 .fp 740 .off, .op2 .add .r8 .r2 .r3 .id,
  .op1 (.lsr 1) .r8 .r8, .op2 .sub .r8 .r8 .r1 .id, .op2 .sub .r8 .r8 .r7 .id, .op2 .add .r9 .r4 .r5 .id, .op2 .sub .r9 .r9 .r1 (.lsl 1),
  .op2 .sub .r9 .r9 .r7 (.lsl 7), .op1 (.lsr 3) .r9 .r9, .op2 .sub .r9 .r9 .r8 .id, .op2 .mul .r9 .r9 .lr .id, .op2 .sub .r8 .r8 .r9 .id,
  .op2 .sub .r2 .r2 .r3 .id, .op1 (.lsr 1) .r2 .r2, .op2 .sub .r3 .r4 .r5 .id, .op1 (.lsr 2) .r3 .r3, .op2 .sub .r3 .r3 .r2 .id,
  .op2 .mul .r3 .r3 .lr .id, .op2 .add .r4 .r7 .r7 (.lsl 3), .op2 .add .r4 .r4 .r9 .id, .op2 .add .r4 .r4 .r4 (.lsl 3),
  .op2 .add .r4 .r4 .r8 .id, .op2 .add .r4 .r4 .r4 (.lsl 3), .op2 .add .r4 .r4 .r1 .id, .op2 .sub .r4 .r6 .r4 .id]

/-- mult_toom4_256_16.s:9212-9331 -/
def polymul_asm_74 : List Ins := [
  .op2 .mul .r4 .r4 .lr .id, .op2 .sub .r4 .r4 .r2 .id, .op1 (.lsr 3) .r4 .r4, .op2 .sub .r4 .r4 .r3 .id, .op2 .mul .r5 .r4 .ip .id,
  .op2 .sub .r6 .r3 .r4 .id, .op2 .sub .r3 .r2 .r6 .id, .op2 .sub .r3 .r3 .r5 .id, .ldrh .sl .r0 228 .off, .op2 .add .r1 .r1 .sl .id,
  .strh .r1 .r0 228 .off, .ldrh .sl .r0 356 .off, .op2 .add .r3 .r3 .sl .id, .strh .r3 .r0 356 .off, .ldrh .sl .r0 484 .off,
  .op2 .add .r8 .r8 .sl .id, .strh .r8 .r0 484 .off, .ldrh .sl .r0 612 .off, .op2 .add .r6 .r6 .sl .id, .strh .r6 .r0 612 .off,
  .ldrh .sl .r0 740 .off, .op2 .add .r9 .r9 .sl .id, .strh .r9 .r0 740 .off, .ldrh .sl .r0 868 .off, .op2 .add .r5 .r5 .sl .id,
  .strh .r5 .r0 868 .off, .strh .r7 .r0 996 .off, .ldrh .r1 .sp 230 .off, .ldrh .r2 .sp 486 .off, .ldrh .r3 .sp 742 .off,
  .ldrh .r4 .sp 998 .off, .ldrh .r5 .fp 230 .off, .ldrh .r6 .fp 486 .off, .ldrh .r7 .fp 742 .off, .op2 .add .r8 .r2 .r3 .id,
  .op1 (.lsr 1) .r8 .r8, .op2 .sub .r8 .r8 .r1 .id, .op2 .sub .r8 .r8 .r7 .id, .op2 .add .r9 .r4 .r5 .id, .op2 .sub .r9 .r9 .r1 (.lsl 1),
  .op2 .sub .r9 .r9 .r7 (.lsl 7), .op1 (.lsr 3) .r9 .r9, .op2 .sub .r9 .r9 .r8 .id, .op2 .mul .r9 .r9 .lr .id, .op2 .sub .r8 .r8 .r9 .id,
  .op2 .sub .r2 .r2 .r3 .id, .op1 (.lsr 1) .r2 .r2, .op2 .sub .r3 .r4 .r5 .id, .op1 (.lsr 2) .r3 .r3, .op2 .sub .r3 .r3 .r2 .id,
  .op2 .mul .r3 .r3 .lr .id, .op2 .add .r4 .r7 .r7 (.lsl 3), .op2 .add .r4 .r4 .r9 .id, .op2 .add .r4 .r4 .r4 (.lsl 3),
  .op2 .add .r4 .r4 .r8 .id, .op2 .add .r4 .r4 .r4 (.lsl 3), .op2 .add .r4 .r4 .r1 .id, .op2 .sub .r4 .r6 .r4 .id,
  .op2 .mul .r4 .r4 .lr .id, .op2 .sub .r4 .r4 .r2 .id, .op1 (.lsr 3) .r4 .r4, .op2 .sub .r4 .r4 .r3 .id, .op2 .mul .r5 .r4 .ip .id,
  .op2 .sub .r6 .r3 .r4 .id, .op2 .sub .r3 .r2 .r6 .id, .op2 .sub .r3 .r3 .r5 .id, .ldrh .sl .r0 230 .off, .op2 .add .r1 .r1 .sl .id,
  .strh .r1 .r0 230 .off, .ldrh .sl .r0 358 .off, .op2 .add .r3 .r3 .sl .id, .strh .r3 .r0 358 .off, .ldrh .sl .r0 486 .off,
  .op2 .add .r8 .r8 .sl .id, .strh .r8 .r0 486 .off, .ldrh .sl .r0 614 .off, .op2 .add .r6 .r6 .sl .id, .strh .r6 .r0 614 .off,
  .ldrh .sl .r0 742 .off, .op2 .add .r9 .r9 .sl .id, .strh .r9 .r0 742 .off, .ldrh .sl .r0 870 .off, .op2 .add .r5 .r5 .sl .id,
  .strh .r5 .r0 870 .off, .strh .r7 .r0 998 .off, .ldrh .r1 .sp 232 .off, .ldrh .r2 .sp 488 .off, .ldrh .r3 .sp 744 .off,
  .ldrh .r4 .sp 1000 .off, .ldrh .r5 .fp 232 .off, .ldrh .r6 .fp 488 .off, .ldrh .r7 .fp 744 .off, .op2 .add .r8 .r2 .r3 .id,
  .op1 (.lsr 1) .r8 .r8, .op2 .sub .r8 .r8 .r1 .id, .op2 .sub .r8 .r8 .r7 .id, .op2 .add .r9 .r4 .r5 .id, .op2 .sub .r9 .r9 .r1 (.lsl 1),
  .op2 .sub .r9 .r9 .r7 (.lsl 7), .op1 (.lsr 3) .r9 .r9, .op2 .sub .r9 .r9 .r8 .id, .op2 .mul .r9 .r9 .lr .id, .op2 .sub .r8 .r8 .r9 .id,
  .op2 .sub .r2 .r2 .r3 .id, .op1 (.lsr 1) .r2 .r2, .op2 .sub .r3 .r4 .r5 .id, .op1 (.lsr 2) .r3 .r3, .op2 .sub .r3 .r3 .r2 .id,
  .op2 .mul .r3 .r3 .lr .id, .op2 .add .r4 .r7 .r7 (.lsl 3), .op2 .add .r4 .r4 .r9 .id, .op2 .add .r4 .r4 .r4 (.lsl 3),
  .op2 .add .r4 .r4 .r8 .id, .op2 .add .r4 .r4 .r4 (.lsl 3), .op2 .add .r4 .r4 .r1 .id, .op2 .sub .r4 .r6 .r4 .id,
  .op2 .mul .r4 .r4 .lr .id, .op2 .sub .r4 .r4 .r2 .id, .op1 (.lsr 3) .r4 .r4, .op2 .sub .r4 .r4 .r3 .id]

/-- mult_toom4_256_16.s:9332-9451 -/
def polymul_asm_75 : List Ins := [
  .op2 .mul .r5 .r4 .ip .id, .op2 .sub .r6 .r3 .r4 .id, .op2 .sub .r3 .r2 .r6 .id, .op2 .sub .r3 .r3 .r5 .id, .ldrh .sl .r0 232 .off,
  .op2 .add .r1 .r1 .sl .id, .strh .r1 .r0 232 .off, .ldrh .sl .r0 360 .off, .op2 .add .r3 .r3 .sl .id, .strh .r3 .r0 360 .off,
  .ldrh .sl .r0 488 .off, .op2 .add .r8 .r8 .sl .id, .strh .r8 .r0 488 .off, .ldrh .sl .r0 616 .off, .op2 .add .r6 .r6 .sl .id,
  .strh .r6 .r0 616 .off, .ldrh .sl .r0 744 .off, .op2 .add .r9 .r9 .sl .id, .strh .r9 .r0 744 .off, .ldrh .sl .r0 872 .off,
  .op2 .add .r5 .r5 .sl .id, .strh .r5 .r0 872 .off, .strh .r7 .r0 1000 .off, .ldrh .r1 .sp 234 .off, .ldrh .r2 .sp 490 .off,
  .ldrh .r3 .sp 746 .off, .ldrh .r4 .sp 1002 .off, .ldrh .r5 .fp 234 .off, .ldrh .r6 .fp 490 .off, .ldrh .r7 .fp 746 .off,
  .op2 .add .r8 .r2 .r3 .id, .op1 (.lsr 1) .r8 .r8, .op2 .sub .r8 .r8 .r1 .id, .op2 .sub .r8 .r8 .r7 .id, .op2 .add .r9 .r4 .r5 .id,
  .op2 .sub .r9 .r9 .r1 (.lsl 1), .op2 .sub .r9 .r9 .r7 (.lsl 7), .op1 (.lsr 3) .r9 .r9, .op2 .sub .r9 .r9 .r8 .id,
  .op2 .mul .r9 .r9 .lr .id, .op2 .sub .r8 .r8 .r9 .id, .op2 .sub .r2 .r2 .r3 .id, .op1 (.lsr 1) .r2 .r2, .op2 .sub .r3 .r4 .r5 .id,
  .op1 (.lsr 2) .r3 .r3, .op2 .sub .r3 .r3 .r2 .id, .op2 .mul .r3 .r3 .lr .id, .op2 .add .r4 .r7 .r7 (.lsl 3), .op2 .add .r4 .r4 .r9 .id,
  .op2 .add .r4 .r4 .r4 (.lsl 3), .op2 .add .r4 .r4 .r8 .id, .op2 .add .r4 .r4 .r4 (.lsl 3), .op2 .add .r4 .r4 .r1 .id,
  .op2 .sub .r4 .r6 .r4 .id, .op2 .mul .r4 .r4 .lr .id, .op2 .sub .r4 .r4 .r2 .id, .op1 (.lsr 3) .r4 .r4, .op2 .sub .r4 .r4 .r3 .id,
  .op2 .mul .r5 .r4 .ip .id, .op2 .sub .r6 .r3 .r4 .id, .op2 .sub .r3 .r2 .r6 .id, .op2 .sub .r3 .r3 .r5 .id, .ldrh .sl .r0 234 .off,
  .op2 .add .r1 .r1 .sl .id, .strh .r1 .r0 234 .off, .ldrh .sl .r0 362 .off, .op2 .add .r3 .r3 .sl .id, .strh .r3 .r0 362 .off,
  .ldrh .sl .r0 490 .off, .op2 .add .r8 .r8 .sl .id, .strh .r8 .r0 490 .off, .ldrh .sl .r0 618 .off, .op2 .add .r6 .r6 .sl .id,
  .strh .r6 .r0 618 .off, .ldrh .sl .r0 746 .off, .op2 .add .r9 .r9 .sl .id, .strh .r9 .r0 746 .off, .ldrh .sl .r0 874 .off,
  .op2 .add .r5 .r5 .sl .id, .strh .r5 .r0 874 .off, .strh .r7 .r0 1002 .off, .ldrh .r1 .sp 236 .off, .ldrh .r2 .sp 492 .off,
  .ldrh .r3 .sp 748 .off, .ldrh .r4 .sp 1004 .off, .ldrh .r5 .fp 236 .off, .ldrh .r6 .fp 492 .off, .ldrh .r7 .fp 748 .off,
  .op2 .add .r8 .r2 .r3 .id, .op1 (.lsr 1) .r8 .r8, .op2 .sub .r8 .r8 .r1 .id, .op2 .sub .r8 .r8 .r7 .id, .op2 .add .r9 .r4 .r5 .id,
  .op2 .sub .r9 .r9 .r1 (.lsl 1), .op2 .sub .r9 .r9 .r7 (.lsl 7), .op1 (.lsr 3) .r9 .r9, .op2 .sub .r9 .r9 .r8 .id,
  .op2 .mul .r9 .r9 .lr .id, .op2 .sub .r8 .r8 .r9 .id, .op2 .sub .r2 .r2 .r3 .id, .op1 (.lsr 1) .r2 .r2, .op2 .sub .r3 .r4 .r5 .id,
  .op1 (.lsr 2) .r3 .r3, .op2 .sub .r3 .r3 .r2 .id, .op2 .mul .r3 .r3 .lr .id, .op2 .add .r4 .r7 .r7 (.lsl 3), .op2 .add .r4 .r4 .r9 .id,
  .op2 .add .r4 .r4 .r4 (.lsl 3), .op2 .add .r4 .r4 .r8 .id, .op2 .add .r4 .r4 .r4 (.lsl 3), .op2 .add .r4 .r4 .r1 .id,
  .op2 .sub .r4 .r6 .r4 .id, .op2 .mul .r4 .r4 .lr .id, .op2 .sub .r4 .r4 .r2 .id, .op1 (.lsr 3) .r4 .r4, .op2 .sub .r4 .r4 .r3 .id,
  .op2 .mul .r5 .r4 .ip .id, .op2 .sub .r6 .r3 .r4 .id, .op2 .sub .r3 .r2 .r6 .id, .op2 .sub .r3 .r3 .r5 .id]

/-- mult_toom4_256_16.s:9452-9571 -/
def polymul_asm_76 : List Ins := [
  .ldrh .sl .r0 236 .off, .op2 .add .r1 .r1 .sl .id, .strh .r1 .r0 236 .off, .ldrh .sl .r0 364 .off, .op2 .add .r3 .r3 .sl .id,
  .strh .r3 .r0 364 .off, .ldrh .sl .r0 492 .off, .op2 .add .r8 .r8 .sl .id, .strh .r8 .r0 492 .off, .ldrh .sl .r0 620 .off,
  .op2 .add .r6 .r6 .sl .id, .strh .r6 .r0 620 .off, .ldrh .sl .r0 748 .off, .op2 .add .r9 .r9 .sl .id, .strh .r9 .r0 748 .off,
  .ldrh .sl .r0 876 .off, .op2 .add .r5 .r5 .sl .id, .strh .r5 .r0 876 .off, .strh .r7 .r0 1004 .off, .ldrh .r1 .sp 238 .off,
  .ldrh .r2 .sp 494 .off, .ldrh .r3 .sp 750 .off, .ldrh .r4 .sp 1006 .off, .ldrh .r5 .fp 238 .off, .ldrh .r6 .fp 494 .off,
  .ldrh .r7 .fp 750 .off, .op2 .add .r8 .r2 .r3 .id, .op1 (.lsr 1) .r8 .r8, .op2 .sub .r8 .r8 .r1 .id, .op2 .sub .r8 .r8 .r7 .id,
  .op2 .add .r9 .r4 .r5 .id, .op2 .sub .r9 .r9 .r1 (.lsl 1), .op2 .sub .r9 .r9 .r7 (.lsl 7), .op1 (.lsr 3) .r9 .r9,
  .op2 .sub .r9 .r9 .r8 .id, .op2 .mul .r9 .r9 .lr .id, .op2 .sub .r8 .r8 .r9 .id, .op2 .sub .r2 .r2 .r3 .id, .op1 (.lsr 1) .r2 .r2,
  .op2 .sub .r3 .r4 .r5 .id, .op1 (.lsr 2) .r3 .r3, .op2 .sub .r3 .r3 .r2 .id, .op2 .mul .r3 .r3 .lr .id, .op2 .add .r4 .r7 .r7 (.lsl 3),
  .op2 .add .r4 .r4 .r9 .id, .op2 .add .r4 .r4 .r4 (.lsl 3), .op2 .add .r4 .r4 .r8 .id, .op2 .add .r4 .r4 .r4 (.lsl 3),
  .op2 .add .r4 .r4 .r1 .id, .op2 .sub .r4 .r6 .r4 .id, .op2 .mul .r4 .r4 .lr .id, .op2 .sub .r4 .r4 .r2 .id, .op1 (.lsr 3) .r4 .r4,
  .op2 .sub .r4 .r4 .r3 .id, .op2 .mul .r5 .r4 .ip .id, .op2 .sub .r6 .r3 .r4 .id, .op2 .sub .r3 .r2 .r6 .id, .op2 .sub .r3 .r3 .r5 .id,
  .ldrh .sl .r0 238 .off, .op2 .add .r1 .r1 .sl .id, .strh .r1 .r0 238 .off, .ldrh .sl .r0 366 .off, .op2 .add .r3 .r3 .sl .id,
  .strh .r3 .r0 366 .off, .ldrh .sl .r0 494 .off, .op2 .add .r8 .r8 .sl .id, .strh .r8 .r0 494 .off, .ldrh .sl .r0 622 .off,
  .op2 .add .r6 .r6 .sl .id, .strh .r6 .r0 622 .off, .ldrh .sl .r0 750 .off, .op2 .add .r9 .r9 .sl .id, .strh .r9 .r0 750 .off,
  .ldrh .sl .r0 878 .off, .op2 .add .r5 .r5 .sl .id, .strh .r5 .r0 878 .off, .strh .r7 .r0 1006 .off, .ldrh .r1 .sp 240 .off,
  .ldrh .r2 .sp 496 .off, .ldrh .r3 .sp 752 .off, .ldrh .r4 .sp 1008 .off, .ldrh .r5 .fp 240 .off, .ldrh .r6 .fp 496 .off,
  .ldrh .r7 .fp 752 .off, .op2 .add .r8 .r2 .r3 .id, .op1 (.lsr 1) .r8 .r8, .op2 .sub .r8 .r8 .r1 .id, .op2 .sub .r8 .r8 .r7 .id,
  .op2 .add .r9 .r4 .r5 .id, .op2 .sub .r9 .r9 .r1 (.lsl 1), .op2 .sub .r9 .r9 .r7 (.lsl 7), .op1 (.lsr 3) .r9 .r9,
  .op2 .sub .r9 .r9 .r8 .id, .op2 .mul .r9 .r9 .lr .id, .op2 .sub .r8 .r8 .r9 .id, .op2 .sub .r2 .r2 .r3 .id, .op1 (.lsr 1) .r2 .r2,
  .op2 .sub .r3 .r4 .r5 .id, .op1 (.lsr 2) .r3 .r3, .op2 .sub .r3 .r3 .r2 .id, .op2 .mul .r3 .r3 .lr .id, .op2 .add .r4 .r7 .r7 (.lsl 3),
  .op2 .add .r4 .r4 .r9 .id, .op2 .add .r4 .r4 .r4 (.lsl 3), .op2 .add .r4 .r4 .r8 .id, .op2 .add .r4 .r4 .r4 (.lsl 3),
  .op2 .add .r4 .r4 .r1 .id, .op2 .sub .r4 .r6 .r4 .id, .op2 .mul .r4 .r4 .lr .id, .op2 .sub .r4 .r4 .r2 .id, .op1 (.lsr 3) .r4 .r4,
  .op2 .sub .r4 .r4 .r3 .id, .op2 .mul .r5 .r4 .ip .id, .op2 .sub .r6 .r3 .r4 .id, .op2 .sub .r3 .r2 .r6 .id, .op2 .sub .r3 .r3 .r5 .id,
  .ldrh .sl .r0 240 .off, .op2 .add .r1 .r1 .sl .id, .strh .r1 .r0 240 .off, .ldrh .sl .r0 368 .off]

/-- mult_toom4_256_16.s:9572-9691 -/
def polymul_asm_77 : List Ins := [
  .op2 .add .r3 .r3 .sl .id, .strh .r3 .r0 368 .off, .ldrh .sl .r0 496 .off, .op2 .add .r8 .r8 .sl .id, .strh .r8 .r0 496 .off,
  .ldrh .sl .r0 624 .off, .op2 .add .r6 .r6 .sl .id, .strh .r6 .r0 624 .off, .ldrh .sl .r0 752 .off, .op2 .add .r9 .r9 .sl .id,
  .strh .r9 .r0 752 .off, .ldrh .sl .r0 880 .off, .op2 .add .r5 .r5 .sl .id, .strh .r5 .r0 880 .off, .strh .r7 .r0 1008 .off,
  .ldrh .r1 .sp 242 .off, .ldrh .r2 .sp 498 .off, .ldrh .r3 .sp 754 .off, .ldrh .r4 .sp 1010 .off, .ldrh .r5 .fp 242 .off,
  .ldrh .r6 .fp 498 .off, .ldrh .r7 .fp 754 .off, .op2 .add .r8 .r2 .r3 .id, .op1 (.lsr 1) .r8 .r8, .op2 .sub .r8 .r8 .r1 .id,
  .op2 .sub .r8 .r8 .r7 .id, .op2 .add .r9 .r4 .r5 .id, .op2 .sub .r9 .r9 .r1 (.lsl 1), .op2 .sub .r9 .r9 .r7 (.lsl 7),
  .op1 (.lsr 3) .r9 .r9, .op2 .sub .r9 .r9 .r8 .id, .op2 .mul .r9 .r9 .lr .id, .op2 .sub .r8 .r8 .r9 .id, .op2 .sub .r2 .r2 .r3 .id,
  .op1 (.lsr 1) .r2 .r2, .op2 .sub .r3 .r4 .r5 .id, .op1 (.lsr 2) .r3 .r3, .op2 .sub .r3 .r3 .r2 .id, .op2 .mul .r3 .r3 .lr .id,
  .op2 .add .r4 .r7 .r7 (.lsl 3), .op2 .add .r4 .r4 .r9 .id, .op2 .add .r4 .r4 .r4 (.lsl 3), .op2 .add .r4 .r4 .r8 .id,
  .op2 .add .r4 .r4 .r4 (.lsl 3), .op2 .add .r4 .r4 .r1 .id, .op2 .sub .r4 .r6 .r4 .id, .op2 .mul .r4 .r4 .lr .id,
  .op2 .sub .r4 .r4 .r2 .id, .op1 (.lsr 3) .r4 .r4, .op2 .sub .r4 .r4 .r3 .id, .op2 .mul .r5 .r4 .ip .id, .op2 .sub .r6 .r3 .r4 .id,
  .op2 .sub .r3 .r2 .r6 .id, .op2 .sub .r3 .r3 .r5 .id, .ldrh .sl .r0 242 .off, .op2 .add .r1 .r1 .sl .id, .strh .r1 .r0 242 .off,
  .ldrh .sl .r0 370 .off, .op2 .add .r3 .r3 .sl .id, .strh .r3 .r0 370 .off, .ldrh .sl .r0 498 .off, .op2 .add .r8 .r8 .sl .id,
  .strh .r8 .r0 498 .off, .ldrh .sl .r0 626 .off, .op2 .add .r6 .r6 .sl .id, .strh .r6 .r0 626 .off, .ldrh .sl .r0 754 .off,
  .op2 .add .r9 .r9 .sl .id, .strh .r9 .r0 754 .off, .ldrh .sl .r0 882 .off, .op2 .add .r5 .r5 .sl .id, .strh .r5 .r0 882 .off,
  .strh .r7 .r0 1010 .off, .ldrh .r1 .sp 244 .off, .ldrh .r2 .sp 500 .off, .ldrh .r3 .sp 756 .off, .ldrh .r4 .sp 1012 .off,
  .ldrh .r5 .fp 244 .off, .ldrh .r6 .fp 500 .off, .ldrh .r7 .fp 756 .off, .op2 .add .r8 .r2 .r3 .id, .op1 (.lsr 1) .r8 .r8,
  .op2 .sub .r8 .r8 .r1 .id, .op2 .sub .r8 .r8 .r7 .id, .op2 .add .r9 .r4 .r5 .id, .op2 .sub .r9 .r9 .r1 (.lsl 1),
  .op2 .sub .r9 .r9 .r7 (.lsl 7), .op1 (.lsr 3) .r9 .r9, .op2 .sub .r9 .r9 .r8 .id, .op2 .mul .r9 .r9 .lr .id, .op2 .sub .r8 .r8 .r9 .id,
  .op2 .sub .r2 .r2 .r3 .id, .op1 (.lsr 1) .r2 .r2, .op2 .sub .r3 .r4 .r5 .id, .op1 (.lsr 2) .r3 .r3, .op2 .sub .r3 .r3 .r2 .id,
  .op2 .mul .r3 .r3 .lr .id, .op2 .add .r4 .r7 .r7 (.lsl 3), .op2 .add .r4 .r4 .r9 .id, .op2 .add .r4 .r4 .r4 (.lsl 3),
  .op2 .add .r4 .r4 .r8 .id, .op2 .add .r4 .r4 .r4 (.lsl 3), .op2 .add .r4 .r4 .r1 .id, .op2 .sub .r4 .r6 .r4 .id,
  .op2 .mul .r4 .r4 .lr .id, .op2 .sub .r4 .r4 .r2 .id, .op1 (.lsr 3) .r4 .r4, .op2 .sub .r4 .r4 .r3 .id, .op2 .mul .r5 .r4 .ip .id,
  .op2 .sub .r6 .r3 .r4 .id, .op2 .sub .r3 .r2 .r6 .id, .op2 .sub .r3 .r3 .r5 .id, .ldrh .sl .r0 244 .off, .op2 .add .r1 .r1 .sl .id,
  .strh .r1 .r0 244 .off, .ldrh .sl .r0 372 .off, .op2 .add .r3 .r3 .sl .id, .strh .r3 .r0 372 .off, .ldrh .sl .r0 500 .off,
  .op2 .add .r8 .r8 .sl .id]

/-- mult_toom4_256_16.s:9692-9811 -/
def polymul_asm_78 : List Ins := [
  .strh .r8 .r0 500 .off, .ldrh .sl .r0 628 .off, .op2 .add .r6 .r6 .sl .id, .strh .r6 .r0 628 .off, .ldrh .sl .r0 756 .off,
  .op2 .add .r9 .r9 .sl .id, .strh .r9 .r0 756 .off, .ldrh .sl .r0 884 .off, .op2 .add .r5 .r5 .sl .id, .strh .r5 .r0 884 .off,
  .strh .r7 .r0 1012 .off, .ldrh .r1 .sp 246 .off, .ldrh .r2 .sp 502 .off, .ldrh .r3 .sp 758 .off, .ldrh .r4 .sp 1014 .off,
  .ldrh .r5 .fp 246 .off, .ldrh .r6 .fp 502 .off, .ldrh .r7 .fp 758 .off, .op2 .add .r8 .r2 .r3 .id, .op1 (.lsr 1) .r8 .r8,
  .op2 .sub .r8 .r8 .r1 .id, .op2 .sub .r8 .r8 .r7 .id, .op2 .add .r9 .r4 .r5 .id, .op2 .sub .r9 .r9 .r1 (.lsl 1),
  .op2 .sub .r9 .r9 .r7 (.lsl 7), .op1 (.lsr 3) .r9 .r9, .op2 .sub .r9 .r9 .r8 .id, .op2 .mul .r9 .r9 .lr .id, .op2 .sub .r8 .r8 .r9 .id,
  .op2 .sub .r2 .r2 .r3 .id, .op1 (.lsr 1) .r2 .r2, .op2 .sub .r3 .r4 .r5 .id, .op1 (.lsr 2) .r3 .r3, .op2 .sub .r3 .r3 .r2 .id,
  .op2 .mul .r3 .r3 .lr .id, .op2 .add .r4 .r7 .r7 (.lsl 3), .op2 .add .r4 .r4 .r9 .id, .op2 .add .r4 .r4 .r4 (.lsl 3),
  .op2 .add .r4 .r4 .r8 .id, .op2 .add .r4 .r4 .r4 (.lsl 3), .op2 .add .r4 .r4 .r1 .id, .op2 .sub .r4 .r6 .r4 .id,
  .op2 .mul .r4 .r4 .lr .id, .op2 .sub .r4 .r4 .r2 .id, .op1 (.lsr 3) .r4 .r4, .op2 .sub .r4 .r4 .r3 .id, .op2 .mul .r5 .r4 .ip .id,
  .op2 .sub .r6 .r3 .r4 .id, .op2 .sub .r3 .r2 .r6 .id, .op2 .sub .r3 .r3 .r5 .id, .ldrh .sl .r0 246 .off, .op2 .add .r1 .r1 .sl .id,
  .strh .r1 .r0 246 .off, .ldrh .sl .r0 374 .off, .op2 .add .r3 .r3 .sl .id, .strh .r3 .r0 374 .off, .ldrh .sl .r0 502 .off,
  .op2 .add .r8 .r8 .sl .id, .strh .r8 .r0 502 .off, .ldrh .sl .r0 630 .off, .op2 .add .r6 .r6 .sl .id, .strh .r6 .r0 630 .off,
  .ldrh .sl .r0 758 .off, .op2 .add .r9 .r9 .sl .id, .strh .r9 .r0 758 .off, .ldrh .sl .r0 886 .off, .op2 .add .r5 .r5 .sl .id,
  .strh .r5 .r0 886 .off, .strh .r7 .r0 1014 .off, .ldrh .r1 .sp 248 .off, .ldrh .r2 .sp 504 .off, .ldrh .r3 .sp 760 .off,
  .ldrh .r4 .sp 1016 .off, .ldrh .r5 .fp 248 .off, .ldrh .r6 .fp 504 .off, .ldrh .r7 .fp 760 .off, .op2 .add .r8 .r2 .r3 .id,
  .op1 (.lsr 1) .r8 .r8, .op2 .sub .r8 .r8 .r1 .id, .op2 .sub .r8 .r8 .r7 .id, .op2 .add .r9 .r4 .r5 .id, .op2 .sub .r9 .r9 .r1 (.lsl 1),
  .op2 .sub .r9 .r9 .r7 (.lsl 7), .op1 (.lsr 3) .r9 .r9, .op2 .sub .r9 .r9 .r8 .id, .op2 .mul .r9 .r9 .lr .id, .op2 .sub .r8 .r8 .r9 .id,
  .op2 .sub .r2 .r2 .r3 .id, .op1 (.lsr 1) .r2 .r2, .op2 .sub .r3 .r4 .r5 .id, .op1 (.lsr 2) .r3 .r3, .op2 .sub .r3 .r3 .r2 .id,
  .op2 .mul .r3 .r3 .lr .id, .op2 .add .r4 .r7 .r7 (.lsl 3), .op2 .add .r4 .r4 .r9 .id, .op2 .add .r4 .r4 .r4 (.lsl 3),
  .op2 .add .r4 .r4 .r8 .id, .op2 .add .r4 .r4 .r4 (.lsl 3), .op2 .add .r4 .r4 .r1 .id, .op2 .sub .r4 .r6 .r4 .id,
  .op2 .mul .r4 .r4 .lr .id, .op2 .sub .r4 .r4 .r2 .id, .op1 (.lsr 3) .r4 .r4, .op2 .sub .r4 .r4 .r3 .id, .op2 .mul .r5 .r4 .ip .id,
  .op2 .sub .r6 .r3 .r4 .id, .op2 .sub .r3 .r2 .r6 .id, .op2 .sub .r3 .r3 .r5 .id, .ldrh .sl .r0 248 .off, .op2 .add .r1 .r1 .sl .id,
  .strh .r1 .r0 248 .off, .ldrh .sl .r0 376 .off, .op2 .add .r3 .r3 .sl .id, .strh .r3 .r0 376 .off, .ldrh .sl .r0 504 .off,
  .op2 .add .r8 .r8 .sl .id, .strh .r8 .r0 504 .off, .ldrh .sl .r0 632 .off, .op2 .add .r6 .r6 .sl .id, .strh .r6 .r0 632 .off]

/-- mult_toom4_256_16.s:9812-9931 -/
def polymul_asm_79 : List Ins := [
  .ldrh .sl .r0 760 .off, .op2 .add .r9 .r9 .sl .id, .strh .r9 .r0 760 .off, .ldrh .sl .r0 888 .off, .op2 .add .r5 .r5 .sl .id,
  .strh .r5 .r0 888 .off, .strh .r7 .r0 1016 .off, .ldrh .r1 .sp 250 .off, .ldrh .r2 .sp 506 .off, .ldrh .r3 .sp 762 .off,
  .ldrh .r4 .sp 1018 .off, .ldrh .r5 .fp 250 .off, .ldrh .r6 .fp 506 .off, .ldrh .r7 .fp 762 .off, .op2 .add .r8 .r2 .r3 .id,
  .op1 (.lsr 1) .r8 .r8, .op2 .sub .r8 .r8 .r1 .id, .op2 .sub .r8 .r8 .r7 .id, .op2 .add .r9 .r4 .r5 .id, .op2 .sub .r9 .r9 .r1 (.lsl 1),
  .op2 .sub .r9 .r9 .r7 (.lsl 7), .op1 (.lsr 3) .r9 .r9, .op2 .sub .r9 .r9 .r8 .id, .op2 .mul .r9 .r9 .lr .id, .op2 .sub .r8 .r8 .r9 .id,
  .op2 .sub .r2 .r2 .r3 .id, .op1 (.lsr 1) .r2 .r2, .op2 .sub .r3 .r4 .r5 .id, .op1 (.lsr 2) .r3 .r3, .op2 .sub .r3 .r3 .r2 .id,
  .op2 .mul .r3 .r3 .lr .id, .op2 .add .r4 .r7 .r7 (.lsl 3), .op2 .add .r4 .r4 .r9 .id, .op2 .add .r4 .r4 .r4 (.lsl 3),
  .op2 .add .r4 .r4 .r8 .id, .op2 .add .r4 .r4 .r4 (.lsl 3), .op2 .add .r4 .r4 .r1 .id, .op2 .sub .r4 .r6 .r4 .id,
  .op2 .mul .r4 .r4 .lr .id, .op2 .sub .r4 .r4 .r2 .id, .op1 (.lsr 3) .r4 .r4, .op2 .sub .r4 .r4 .r3 .id, .op2 .mul .r5 .r4 .ip .id,
  .op2 .sub .r6 .r3 .r4 .id, .op2 .sub .r3 .r2 .r6 .id, .op2 .sub .r3 .r3 .r5 .id, .ldrh .sl .r0 250 .off, .op2 .add .r1 .r1 .sl .id,
  .strh .r1 .r0 250 .off, .ldrh .sl .r0 378 .off, .op2 .add .r3 .r3 .sl .id, .strh .r3 .r0 378 .off, .ldrh .sl .r0 506 .off,
  .op2 .add .r8 .r8 .sl .id, .strh .r8 .r0 506 .off, .ldrh .sl .r0 634 .off, .op2 .add .r6 .r6 .sl .id, .strh .r6 .r0 634 .off,
  .ldrh .sl .r0 762 .off, .op2 .add .r9 .r9 .sl .id, .strh .r9 .r0 762 .off, .ldrh .sl .r0 890 .off, .op2 .add .r5 .r5 .sl .id,
  .strh .r5 .r0 890 .off, .strh .r7 .r0 1018 .off, .ldrh .r1 .sp 252 .off, .ldrh .r2 .sp 508 .off, .ldrh .r3 .sp 764 .off,
  .ldrh .r4 .sp 1020 .off, .ldrh .r5 .fp 252 .off, .ldrh .r6 .fp 508 .off, .ldrh .r7 .fp 764 .off, .op2 .add .r8 .r2 .r3 .id,
  .op1 (.lsr 1) .r8 .r8, .op2 .sub .r8 .r8 .r1 .id, .op2 .sub .r8 .r8 .r7 .id, .op2 .add .r9 .r4 .r5 .id, .op2 .sub .r9 .r9 .r1 (.lsl 1),
  .op2 .sub .r9 .r9 .r7 (.lsl 7), .op1 (.lsr 3) .r9 .r9, .op2 .sub .r9 .r9 .r8 .id, .op2 .mul .r9 .r9 .lr .id, .op2 .sub .r8 .r8 .r9 .id,
  .op2 .sub .r2 .r2 .r3 .id, .op1 (.lsr 1) .r2 .r2, .op2 .sub .r3 .r4 .r5 .id, .op1 (.lsr 2) .r3 .r3, .op2 .sub .r3 .r3 .r2 .id,
  .op2 .mul .r3 .r3 .lr .id, .op2 .add .r4 .r7 .r7 (.lsl 3), .op2 .add .r4 .r4 .r9 .id, .op2 .add .r4 .r4 .r4 (.lsl 3),
  .op2 .add .r4 .r4 .r8 .id, .op2 .add .r4 .r4 .r4 (.lsl 3), .op2 .add .r4 .r4 .r1 .id, .op2 .sub .r4 .r6 .r4 .id,
  .op2 .mul .r4 .r4 .lr .id, .op2 .sub .r4 .r4 .r2 .id, .op1 (.lsr 3) .r4 .r4, .op2 .sub .r4 .r4 .r3 .id, .op2 .mul .r5 .r4 .ip .id,
  .op2 .sub .r6 .r3 .r4 .id, .op2 .sub .r3 .r2 .r6 .id, .op2 .sub .r3 .r3 .r5 .id, .ldrh .sl .r0 252 .off, .op2 .add .r1 .r1 .sl .id,
  .strh .r1 .r0 252 .off, .ldrh .sl .r0 380 .off, .op2 .add .r3 .r3 .sl .id, .strh .r3 .r0 380 .off, .ldrh .sl .r0 508 .off,
  .op2 .add .r8 .r8 .sl .id, .strh .r8 .r0 508 .off, .ldrh .sl .r0 636 .off, .op2 .add .r6 .r6 .sl .id, .strh .r6 .r0 636 .off,
  .ldrh .sl .r0 764 .off, .op2 .add .r9 .r9 .sl .id, .strh .r9 .r0 764 .off, .ldrh .sl .r0 892 .off]

/-- mult_toom4_256_16.s:9932-9937 -/
def polymul_asm_80 : List Ins := [
  .op2 .add .r5 .r5 .sl .id, .strh .r5 .r0 892 .off, .strh .r7 .r0 1020 .off, .addi .sp .sp 1792,
  .pop [.r4, .r5, .r6, .r7, .r8, .r9, .sl, .fp, .ip, .lr], .bx .lr]

/-- `polymul_asm` (mult_toom4_256_16.s:1250-9937) -/
def polymul_asm : List Stmt := [
  .ins polymul_asm_1, .ins polymul_asm_2, .ins polymul_asm_3, .ins polymul_asm_4, .ins polymul_asm_5, .ins polymul_asm_6, .ins polymul_asm_7, .ins polymul_asm_8, .ins polymul_asm_9, .ins polymul_asm_10, .ins polymul_asm_11, .ins polymul_asm_12, .ins polymul_asm_13, .ins polymul_asm_14, .ins polymul_asm_15, .ins polymul_asm_16, .ins polymul_asm_17, .ins polymul_asm_18, .call 0, .ins polymul_asm_19, .call 0, .ins polymul_asm_20, .call 0, .ins polymul_asm_21, .call 0, .ins polymul_asm_22, .call 0, .ins polymul_asm_23, .call 0, .ins polymul_asm_24, .call 0, .ins polymul_asm_25, .ins polymul_asm_26, .ins polymul_asm_27, .ins polymul_asm_28, .ins polymul_asm_29, .ins polymul_asm_30, .ins polymul_asm_31, .ins polymul_asm_32, .ins polymul_asm_33, .ins polymul_asm_34, .ins polymul_asm_35, .ins polymul_asm_36, .ins polymul_asm_37, .ins polymul_asm_38, .ins polymul_asm_39, .ins polymul_asm_40, .ins polymul_asm_41, .ins polymul_asm_42, .ins polymul_asm_43, .ins polymul_asm_44, .ins polymul_asm_45, .ins polymul_asm_46, .ins polymul_asm_47, .ins polymul_asm_48, .ins polymul_asm_49, .ins polymul_asm_50, .ins polymul_asm_51, .ins polymul_asm_52, .ins polymul_asm_53, .ins polymul_asm_54, .ins polymul_asm_55, .ins polymul_asm_56, .ins polymul_asm_57, .ins polymul_asm_58, .ins polymul_asm_59, .ins polymul_asm_60, .ins polymul_asm_61, .ins polymul_asm_62, .ins polymul_asm_63, .ins polymul_asm_64, .ins polymul_asm_65, .ins polymul_asm_66, .ins polymul_asm_67, .ins polymul_asm_68, .ins polymul_asm_69, .ins polymul_asm_70, .ins polymul_asm_71, .ins polymul_asm_72, .ins polymul_asm_73, .ins polymul_asm_74, .ins polymul_asm_75, .ins polymul_asm_76, .ins polymul_asm_77, .ins polymul_asm_78, .ins polymul_asm_79, .ins polymul_asm_80]

end Saber.Arm
