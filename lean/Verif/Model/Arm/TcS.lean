import Verif.Model.Arm.Machine
/-!
# `Cortex-M4/src/*/m4-striding/tc.s`

The instructions of the file, in order.  Functions are cut at labels, branches and calls.  `.call 1` is the last of the seven calls of
`kara_strd_mem_asm` (line 2214), after which the return address is used as a number.
-/
namespace Saber.Arm
/-- tc.s:7-126 -/
def toom_cook_4way_striding_asm_1 : List Ins := [
  .push [.r4, .r5, .r6, .r7, .r8, .r9, .sl, .fp, .lr], .addi .sp .sp (-1664), .ldr .r4 .r0 0 .off, .ldr .r6 .r0 8 .off,
  .ldr .r5 .r0 4 .off, .ldr .r7 .r0 12 .off, .op2 .pkhbt .ip .r4 .r6 (.lsl 16), .op2 .pkhtb .r6 .r6 .r4 (.asr 16),
  .op2 .pkhbt .lr .r5 .r7 (.lsl 16), .op2 .pkhtb .r7 .r7 .r5 (.asr 16), .op2 .uadd16 .r8 .ip .r6 .id, .op2 .uadd16 .r9 .lr .r7 .id,
  .op2 .uadd16 .sl .r8 .r9 .id, .op2 .usub16 .fp .r8 .r9 .id, .str .sl .sp 256 .off, .str .fp .sp 384 .off, .op2 .uadd16 .r8 .ip .ip .id,
  .op2 .uadd16 .r8 .r8 .r8 .id, .op2 .uadd16 .r8 .r8 .r6 .id, .op2 .uadd16 .r8 .r8 .r8 .id, .op2 .uadd16 .r9 .lr .lr .id,
  .op2 .uadd16 .r9 .r9 .r9 .id, .op2 .uadd16 .r9 .r9 .r7 .id, .op2 .uadd16 .sl .r8 .r9 .id, .op2 .usub16 .fp .r8 .r9 .id,
  .str .sl .sp 512 .off, .str .fp .sp 640 .off, .op2 .uadd16 .r8 .r7 .r7 .id, .op2 .uadd16 .r8 .r8 .r6 .id, .op2 .uadd16 .r8 .r8 .r8 .id,
  .op2 .uadd16 .r8 .r8 .lr .id, .op2 .uadd16 .r8 .r8 .r8 .id, .op2 .uadd16 .r8 .r8 .ip .id, .str .r8 .sp 128 .off, .str .ip .sp 768 .off,
  .str .r7 .sp 0 .off, .ldr .r4 .r0 16 .off, .ldr .r6 .r0 24 .off, .ldr .r5 .r0 20 .off, .ldr .r7 .r0 28 .off,
  .op2 .pkhbt .ip .r4 .r6 (.lsl 16), .op2 .pkhtb .r6 .r6 .r4 (.asr 16), .op2 .pkhbt .lr .r5 .r7 (.lsl 16),
  .op2 .pkhtb .r7 .r7 .r5 (.asr 16), .op2 .uadd16 .r8 .ip .r6 .id, .op2 .uadd16 .r9 .lr .r7 .id, .op2 .uadd16 .sl .r8 .r9 .id,
  .op2 .usub16 .fp .r8 .r9 .id, .str .sl .sp 260 .off, .str .fp .sp 388 .off, .op2 .uadd16 .r8 .ip .ip .id, .op2 .uadd16 .r8 .r8 .r8 .id,
  .op2 .uadd16 .r8 .r8 .r6 .id, .op2 .uadd16 .r8 .r8 .r8 .id, .op2 .uadd16 .r9 .lr .lr .id, .op2 .uadd16 .r9 .r9 .r9 .id,
  .op2 .uadd16 .r9 .r9 .r7 .id, .op2 .uadd16 .sl .r8 .r9 .id, .op2 .usub16 .fp .r8 .r9 .id, .str .sl .sp 516 .off, .str .fp .sp 644 .off,
  .op2 .uadd16 .r8 .r7 .r7 .id, .op2 .uadd16 .r8 .r8 .r6 .id, .op2 .uadd16 .r8 .r8 .r8 .id, .op2 .uadd16 .r8 .r8 .lr .id,
  .op2 .uadd16 .r8 .r8 .r8 .id, .op2 .uadd16 .r8 .r8 .ip .id, .str .r8 .sp 132 .off, .str .ip .sp 772 .off, .str .r7 .sp 4 .off,
  .ldr .r4 .r0 32 .off, .ldr .r6 .r0 40 .off, .ldr .r5 .r0 36 .off, .ldr .r7 .r0 44 .off, .op2 .pkhbt .ip .r4 .r6 (.lsl 16),
  .op2 .pkhtb .r6 .r6 .r4 (.asr 16), .op2 .pkhbt .lr .r5 .r7 (.lsl 16), .op2 .pkhtb .r7 .r7 .r5 (.asr 16), .op2 .uadd16 .r8 .ip .r6 .id,
  .op2 .uadd16 .r9 .lr .r7 .id, .op2 .uadd16 .sl .r8 .r9 .id, .op2 .usub16 .fp .r8 .r9 .id, .str .sl .sp 264 .off, .str .fp .sp 392 .off,
  .op2 .uadd16 .r8 .ip .ip .id, .op2 .uadd16 .r8 .r8 .r8 .id, .op2 .uadd16 .r8 .r8 .r6 .id, .op2 .uadd16 .r8 .r8 .r8 .id,
  .op2 .uadd16 .r9 .lr .lr .id, .op2 .uadd16 .r9 .r9 .r9 .id, .op2 .uadd16 .r9 .r9 .r7 .id, .op2 .uadd16 .sl .r8 .r9 .id,
  .op2 .usub16 .fp .r8 .r9 .id, .str .sl .sp 520 .off, .str .fp .sp 648 .off, .op2 .uadd16 .r8 .r7 .r7 .id, .op2 .uadd16 .r8 .r8 .r6 .id,
  .op2 .uadd16 .r8 .r8 .r8 .id, .op2 .uadd16 .r8 .r8 .lr .id, .op2 .uadd16 .r8 .r8 .r8 .id, .op2 .uadd16 .r8 .r8 .ip .id,
  .str .r8 .sp 136 .off, .str .ip .sp 776 .off, .str .r7 .sp 8 .off, .ldr .r4 .r0 48 .off, .ldr .r6 .r0 56 .off, .ldr .r5 .r0 52 .off,
  .ldr .r7 .r0 60 .off, .op2 .pkhbt .ip .r4 .r6 (.lsl 16), .op2 .pkhtb .r6 .r6 .r4 (.asr 16), .op2 .pkhbt .lr .r5 .r7 (.lsl 16),
  .op2 .pkhtb .r7 .r7 .r5 (.asr 16), .op2 .uadd16 .r8 .ip .r6 .id, .op2 .uadd16 .r9 .lr .r7 .id, .op2 .uadd16 .sl .r8 .r9 .id,
  .op2 .usub16 .fp .r8 .r9 .id, .str .sl .sp 268 .off, .str .fp .sp 396 .off, .op2 .uadd16 .r8 .ip .ip .id, .op2 .uadd16 .r8 .r8 .r8 .id]

/-- tc.s:127-246 -/
def toom_cook_4way_striding_asm_2 : List Ins := [
  .op2 .uadd16 .r8 .r8 .r6 .id, .op2 .uadd16 .r8 .r8 .r8 .id, .op2 .uadd16 .r9 .lr .lr .id, .op2 .uadd16 .r9 .r9 .r9 .id,
  .op2 .uadd16 .r9 .r9 .r7 .id, .op2 .uadd16 .sl .r8 .r9 .id, .op2 .usub16 .fp .r8 .r9 .id, .str .sl .sp 524 .off, .str .fp .sp 652 .off,
  .op2 .uadd16 .r8 .r7 .r7 .id, .op2 .uadd16 .r8 .r8 .r6 .id, .op2 .uadd16 .r8 .r8 .r8 .id, .op2 .uadd16 .r8 .r8 .lr .id,
  .op2 .uadd16 .r8 .r8 .r8 .id, .op2 .uadd16 .r8 .r8 .ip .id, .str .r8 .sp 140 .off, .str .ip .sp 780 .off, .str .r7 .sp 12 .off,
  .ldr .r4 .r0 64 .off, .ldr .r6 .r0 72 .off, .ldr .r5 .r0 68 .off, .ldr .r7 .r0 76 .off, .op2 .pkhbt .ip .r4 .r6 (.lsl 16),
  .op2 .pkhtb .r6 .r6 .r4 (.asr 16), .op2 .pkhbt .lr .r5 .r7 (.lsl 16), .op2 .pkhtb .r7 .r7 .r5 (.asr 16), .op2 .uadd16 .r8 .ip .r6 .id,
  .op2 .uadd16 .r9 .lr .r7 .id, .op2 .uadd16 .sl .r8 .r9 .id, .op2 .usub16 .fp .r8 .r9 .id, .str .sl .sp 272 .off, .str .fp .sp 400 .off,
  .op2 .uadd16 .r8 .ip .ip .id, .op2 .uadd16 .r8 .r8 .r8 .id, .op2 .uadd16 .r8 .r8 .r6 .id, .op2 .uadd16 .r8 .r8 .r8 .id,
  .op2 .uadd16 .r9 .lr .lr .id, .op2 .uadd16 .r9 .r9 .r9 .id, .op2 .uadd16 .r9 .r9 .r7 .id, .op2 .uadd16 .sl .r8 .r9 .id,
  .op2 .usub16 .fp .r8 .r9 .id, .str .sl .sp 528 .off, .str .fp .sp 656 .off, .op2 .uadd16 .r8 .r7 .r7 .id, .op2 .uadd16 .r8 .r8 .r6 .id,
  .op2 .uadd16 .r8 .r8 .r8 .id, .op2 .uadd16 .r8 .r8 .lr .id, .op2 .uadd16 .r8 .r8 .r8 .id, .op2 .uadd16 .r8 .r8 .ip .id,
  .str .r8 .sp 144 .off, .str .ip .sp 784 .off, .str .r7 .sp 16 .off, .ldr .r4 .r0 80 .off, .ldr .r6 .r0 88 .off, .ldr .r5 .r0 84 .off,
  .ldr .r7 .r0 92 .off, .op2 .pkhbt .ip .r4 .r6 (.lsl 16), .op2 .pkhtb .r6 .r6 .r4 (.asr 16), .op2 .pkhbt .lr .r5 .r7 (.lsl 16),
  .op2 .pkhtb .r7 .r7 .r5 (.asr 16), .op2 .uadd16 .r8 .ip .r6 .id, .op2 .uadd16 .r9 .lr .r7 .id, .op2 .uadd16 .sl .r8 .r9 .id,
  .op2 .usub16 .fp .r8 .r9 .id, .str .sl .sp 276 .off, .str .fp .sp 404 .off, .op2 .uadd16 .r8 .ip .ip .id, .op2 .uadd16 .r8 .r8 .r8 .id,
  .op2 .uadd16 .r8 .r8 .r6 .id, .op2 .uadd16 .r8 .r8 .r8 .id, .op2 .uadd16 .r9 .lr .lr .id, .op2 .uadd16 .r9 .r9 .r9 .id,
  .op2 .uadd16 .r9 .r9 .r7 .id, .op2 .uadd16 .sl .r8 .r9 .id, .op2 .usub16 .fp .r8 .r9 .id, .str .sl .sp 532 .off, .str .fp .sp 660 .off,
  .op2 .uadd16 .r8 .r7 .r7 .id, .op2 .uadd16 .r8 .r8 .r6 .id, .op2 .uadd16 .r8 .r8 .r8 .id, .op2 .uadd16 .r8 .r8 .lr .id,
  .op2 .uadd16 .r8 .r8 .r8 .id, .op2 .uadd16 .r8 .r8 .ip .id, .str .r8 .sp 148 .off, .str .ip .sp 788 .off, .str .r7 .sp 20 .off,
  .ldr .r4 .r0 96 .off, .ldr .r6 .r0 104 .off, .ldr .r5 .r0 100 .off, .ldr .r7 .r0 108 .off, .op2 .pkhbt .ip .r4 .r6 (.lsl 16),
  .op2 .pkhtb .r6 .r6 .r4 (.asr 16), .op2 .pkhbt .lr .r5 .r7 (.lsl 16), .op2 .pkhtb .r7 .r7 .r5 (.asr 16), .op2 .uadd16 .r8 .ip .r6 .id,
  .op2 .uadd16 .r9 .lr .r7 .id, .op2 .uadd16 .sl .r8 .r9 .id, .op2 .usub16 .fp .r8 .r9 .id, .str .sl .sp 280 .off, .str .fp .sp 408 .off,
  .op2 .uadd16 .r8 .ip .ip .id, .op2 .uadd16 .r8 .r8 .r8 .id, .op2 .uadd16 .r8 .r8 .r6 .id, .op2 .uadd16 .r8 .r8 .r8 .id,
  .op2 .uadd16 .r9 .lr .lr .id, .op2 .uadd16 .r9 .r9 .r9 .id, .op2 .uadd16 .r9 .r9 .r7 .id, .op2 .uadd16 .sl .r8 .r9 .id,
  .op2 .usub16 .fp .r8 .r9 .id, .str .sl .sp 536 .off, .str .fp .sp 664 .off, .op2 .uadd16 .r8 .r7 .r7 .id, .op2 .uadd16 .r8 .r8 .r6 .id,
  .op2 .uadd16 .r8 .r8 .r8 .id, .op2 .uadd16 .r8 .r8 .lr .id, .op2 .uadd16 .r8 .r8 .r8 .id, .op2 .uadd16 .r8 .r8 .ip .id,
  .str .r8 .sp 152 .off, .str .ip .sp 792 .off, .str .r7 .sp 24 .off]

/-- tc.s:247-366 -/
def toom_cook_4way_striding_asm_3 : List Ins := [
  .ldr .r4 .r0 112 .off, .ldr .r6 .r0 120 .off, .ldr .r5 .r0 116 .off, .ldr .r7 .r0 124 .off, .op2 .pkhbt .ip .r4 .r6 (.lsl 16),
  .op2 .pkhtb .r6 .r6 .r4 (.asr 16), .op2 .pkhbt .lr .r5 .r7 (.lsl 16), .op2 .pkhtb .r7 .r7 .r5 (.asr 16), .op2 .uadd16 .r8 .ip .r6 .id,
  .op2 .uadd16 .r9 .lr .r7 .id, .op2 .uadd16 .sl .r8 .r9 .id, .op2 .usub16 .fp .r8 .r9 .id, .str .sl .sp 284 .off, .str .fp .sp 412 .off,
  .op2 .uadd16 .r8 .ip .ip .id, .op2 .uadd16 .r8 .r8 .r8 .id, .op2 .uadd16 .r8 .r8 .r6 .id, .op2 .uadd16 .r8 .r8 .r8 .id,
  .op2 .uadd16 .r9 .lr .lr .id, .op2 .uadd16 .r9 .r9 .r9 .id, .op2 .uadd16 .r9 .r9 .r7 .id, .op2 .uadd16 .sl .r8 .r9 .id,
  .op2 .usub16 .fp .r8 .r9 .id, .str .sl .sp 540 .off, .str .fp .sp 668 .off, .op2 .uadd16 .r8 .r7 .r7 .id, .op2 .uadd16 .r8 .r8 .r6 .id,
  .op2 .uadd16 .r8 .r8 .r8 .id, .op2 .uadd16 .r8 .r8 .lr .id, .op2 .uadd16 .r8 .r8 .r8 .id, .op2 .uadd16 .r8 .r8 .ip .id,
  .str .r8 .sp 156 .off, .str .ip .sp 796 .off, .str .r7 .sp 28 .off, .ldr .r4 .r0 128 .off, .ldr .r6 .r0 136 .off,
  .ldr .r5 .r0 132 .off, .ldr .r7 .r0 140 .off, .op2 .pkhbt .ip .r4 .r6 (.lsl 16), .op2 .pkhtb .r6 .r6 .r4 (.asr 16),
  .op2 .pkhbt .lr .r5 .r7 (.lsl 16), .op2 .pkhtb .r7 .r7 .r5 (.asr 16), .op2 .uadd16 .r8 .ip .r6 .id, .op2 .uadd16 .r9 .lr .r7 .id,
  .op2 .uadd16 .sl .r8 .r9 .id, .op2 .usub16 .fp .r8 .r9 .id, .str .sl .sp 288 .off, .str .fp .sp 416 .off, .op2 .uadd16 .r8 .ip .ip .id,
  .op2 .uadd16 .r8 .r8 .r8 .id, .op2 .uadd16 .r8 .r8 .r6 .id, .op2 .uadd16 .r8 .r8 .r8 .id, .op2 .uadd16 .r9 .lr .lr .id,
  .op2 .uadd16 .r9 .r9 .r9 .id, .op2 .uadd16 .r9 .r9 .r7 .id, .op2 .uadd16 .sl .r8 .r9 .id, .op2 .usub16 .fp .r8 .r9 .id,
  .str .sl .sp 544 .off, .str .fp .sp 672 .off, .op2 .uadd16 .r8 .r7 .r7 .id, .op2 .uadd16 .r8 .r8 .r6 .id, .op2 .uadd16 .r8 .r8 .r8 .id,
  .op2 .uadd16 .r8 .r8 .lr .id, .op2 .uadd16 .r8 .r8 .r8 .id, .op2 .uadd16 .r8 .r8 .ip .id, .str .r8 .sp 160 .off, .str .ip .sp 800 .off,
  .str .r7 .sp 32 .off, .ldr .r4 .r0 144 .off, .ldr .r6 .r0 152 .off, .ldr .r5 .r0 148 .off, .ldr .r7 .r0 156 .off,
  .op2 .pkhbt .ip .r4 .r6 (.lsl 16), .op2 .pkhtb .r6 .r6 .r4 (.asr 16), .op2 .pkhbt .lr .r5 .r7 (.lsl 16),
  .op2 .pkhtb .r7 .r7 .r5 (.asr 16), .op2 .uadd16 .r8 .ip .r6 .id, .op2 .uadd16 .r9 .lr .r7 .id, .op2 .uadd16 .sl .r8 .r9 .id,
  .op2 .usub16 .fp .r8 .r9 .id, .str .sl .sp 292 .off, .str .fp .sp 420 .off, .op2 .uadd16 .r8 .ip .ip .id, .op2 .uadd16 .r8 .r8 .r8 .id,
  .op2 .uadd16 .r8 .r8 .r6 .id, .op2 .uadd16 .r8 .r8 .r8 .id, .op2 .uadd16 .r9 .lr .lr .id, .op2 .uadd16 .r9 .r9 .r9 .id,
  .op2 .uadd16 .r9 .r9 .r7 .id, .op2 .uadd16 .sl .r8 .r9 .id, .op2 .usub16 .fp .r8 .r9 .id, .str .sl .sp 548 .off, .str .fp .sp 676 .off,
  .op2 .uadd16 .r8 .r7 .r7 .id, .op2 .uadd16 .r8 .r8 .r6 .id, .op2 .uadd16 .r8 .r8 .r8 .id, .op2 .uadd16 .r8 .r8 .lr .id,
  .op2 .uadd16 .r8 .r8 .r8 .id, .op2 .uadd16 .r8 .r8 .ip .id, .str .r8 .sp 164 .off, .str .ip .sp 804 .off, .str .r7 .sp 36 .off,
  .ldr .r4 .r0 160 .off, .ldr .r6 .r0 168 .off, .ldr .r5 .r0 164 .off, .ldr .r7 .r0 172 .off, .op2 .pkhbt .ip .r4 .r6 (.lsl 16),
  .op2 .pkhtb .r6 .r6 .r4 (.asr 16), .op2 .pkhbt .lr .r5 .r7 (.lsl 16), .op2 .pkhtb .r7 .r7 .r5 (.asr 16), .op2 .uadd16 .r8 .ip .r6 .id,
  .op2 .uadd16 .r9 .lr .r7 .id, .op2 .uadd16 .sl .r8 .r9 .id, .op2 .usub16 .fp .r8 .r9 .id, .str .sl .sp 296 .off, .str .fp .sp 424 .off,
  .op2 .uadd16 .r8 .ip .ip .id, .op2 .uadd16 .r8 .r8 .r8 .id, .op2 .uadd16 .r8 .r8 .r6 .id, .op2 .uadd16 .r8 .r8 .r8 .id]

/-- tc.s:367-486 -/
def toom_cook_4way_striding_asm_4 : List Ins := [
  .op2 .uadd16 .r9 .lr .lr .id, .op2 .uadd16 .r9 .r9 .r9 .id, .op2 .uadd16 .r9 .r9 .r7 .id, .op2 .uadd16 .sl .r8 .r9 .id,
  .op2 .usub16 .fp .r8 .r9 .id, .str .sl .sp 552 .off, .str .fp .sp 680 .off, .op2 .uadd16 .r8 .r7 .r7 .id, .op2 .uadd16 .r8 .r8 .r6 .id,
  .op2 .uadd16 .r8 .r8 .r8 .id, .op2 .uadd16 .r8 .r8 .lr .id, .op2 .uadd16 .r8 .r8 .r8 .id, .op2 .uadd16 .r8 .r8 .ip .id,
  .str .r8 .sp 168 .off, .str .ip .sp 808 .off, .str .r7 .sp 40 .off, .ldr .r4 .r0 176 .off, .ldr .r6 .r0 184 .off,
  .ldr .r5 .r0 180 .off, .ldr .r7 .r0 188 .off, .op2 .pkhbt .ip .r4 .r6 (.lsl 16), .op2 .pkhtb .r6 .r6 .r4 (.asr 16),
  .op2 .pkhbt .lr .r5 .r7 (.lsl 16), .op2 .pkhtb .r7 .r7 .r5 (.asr 16), .op2 .uadd16 .r8 .ip .r6 .id, .op2 .uadd16 .r9 .lr .r7 .id,
  .op2 .uadd16 .sl .r8 .r9 .id, .op2 .usub16 .fp .r8 .r9 .id, .str .sl .sp 300 .off, .str .fp .sp 428 .off, .op2 .uadd16 .r8 .ip .ip .id,
  .op2 .uadd16 .r8 .r8 .r8 .id, .op2 .uadd16 .r8 .r8 .r6 .id, .op2 .uadd16 .r8 .r8 .r8 .id, .op2 .uadd16 .r9 .lr .lr .id,
  .op2 .uadd16 .r9 .r9 .r9 .id, .op2 .uadd16 .r9 .r9 .r7 .id, .op2 .uadd16 .sl .r8 .r9 .id, .op2 .usub16 .fp .r8 .r9 .id,
  .str .sl .sp 556 .off, .str .fp .sp 684 .off, .op2 .uadd16 .r8 .r7 .r7 .id, .op2 .uadd16 .r8 .r8 .r6 .id, .op2 .uadd16 .r8 .r8 .r8 .id,
  .op2 .uadd16 .r8 .r8 .lr .id, .op2 .uadd16 .r8 .r8 .r8 .id, .op2 .uadd16 .r8 .r8 .ip .id, .str .r8 .sp 172 .off, .str .ip .sp 812 .off,
  .str .r7 .sp 44 .off, .ldr .r4 .r0 192 .off, .ldr .r6 .r0 200 .off, .ldr .r5 .r0 196 .off, .ldr .r7 .r0 204 .off,
  .op2 .pkhbt .ip .r4 .r6 (.lsl 16), .op2 .pkhtb .r6 .r6 .r4 (.asr 16), .op2 .pkhbt .lr .r5 .r7 (.lsl 16),
  .op2 .pkhtb .r7 .r7 .r5 (.asr 16), .op2 .uadd16 .r8 .ip .r6 .id, .op2 .uadd16 .r9 .lr .r7 .id, .op2 .uadd16 .sl .r8 .r9 .id,
  .op2 .usub16 .fp .r8 .r9 .id, .str .sl .sp 304 .off, .str .fp .sp 432 .off, .op2 .uadd16 .r8 .ip .ip .id, .op2 .uadd16 .r8 .r8 .r8 .id,
  .op2 .uadd16 .r8 .r8 .r6 .id, .op2 .uadd16 .r8 .r8 .r8 .id, .op2 .uadd16 .r9 .lr .lr .id, .op2 .uadd16 .r9 .r9 .r9 .id,
  .op2 .uadd16 .r9 .r9 .r7 .id, .op2 .uadd16 .sl .r8 .r9 .id, .op2 .usub16 .fp .r8 .r9 .id, .str .sl .sp 560 .off, .str .fp .sp 688 .off,
  .op2 .uadd16 .r8 .r7 .r7 .id, .op2 .uadd16 .r8 .r8 .r6 .id, .op2 .uadd16 .r8 .r8 .r8 .id, .op2 .uadd16 .r8 .r8 .lr .id,
  .op2 .uadd16 .r8 .r8 .r8 .id, .op2 .uadd16 .r8 .r8 .ip .id, .str .r8 .sp 176 .off, .str .ip .sp 816 .off, .str .r7 .sp 48 .off,
  .ldr .r4 .r0 208 .off, .ldr .r6 .r0 216 .off, .ldr .r5 .r0 212 .off, .ldr .r7 .r0 220 .off, .op2 .pkhbt .ip .r4 .r6 (.lsl 16),
  .op2 .pkhtb .r6 .r6 .r4 (.asr 16), .op2 .pkhbt .lr .r5 .r7 (.lsl 16), .op2 .pkhtb .r7 .r7 .r5 (.asr 16), .op2 .uadd16 .r8 .ip .r6 .id,
  .op2 .uadd16 .r9 .lr .r7 .id, .op2 .uadd16 .sl .r8 .r9 .id, .op2 .usub16 .fp .r8 .r9 .id, .str .sl .sp 308 .off, .str .fp .sp 436 .off,
  .op2 .uadd16 .r8 .ip .ip .id, .op2 .uadd16 .r8 .r8 .r8 .id, .op2 .uadd16 .r8 .r8 .r6 .id, .op2 .uadd16 .r8 .r8 .r8 .id,
  .op2 .uadd16 .r9 .lr .lr .id, .op2 .uadd16 .r9 .r9 .r9 .id, .op2 .uadd16 .r9 .r9 .r7 .id, .op2 .uadd16 .sl .r8 .r9 .id,
  .op2 .usub16 .fp .r8 .r9 .id, .str .sl .sp 564 .off, .str .fp .sp 692 .off, .op2 .uadd16 .r8 .r7 .r7 .id, .op2 .uadd16 .r8 .r8 .r6 .id,
  .op2 .uadd16 .r8 .r8 .r8 .id, .op2 .uadd16 .r8 .r8 .lr .id, .op2 .uadd16 .r8 .r8 .r8 .id, .op2 .uadd16 .r8 .r8 .ip .id,
  .str .r8 .sp 180 .off, .str .ip .sp 820 .off, .str .r7 .sp 52 .off, .ldr .r4 .r0 224 .off, .ldr .r6 .r0 232 .off]

/-- tc.s:487-606 -/
def toom_cook_4way_striding_asm_5 : List Ins := [
  .ldr .r5 .r0 228 .off, .ldr .r7 .r0 236 .off, .op2 .pkhbt .ip .r4 .r6 (.lsl 16), .op2 .pkhtb .r6 .r6 .r4 (.asr 16),
  .op2 .pkhbt .lr .r5 .r7 (.lsl 16), .op2 .pkhtb .r7 .r7 .r5 (.asr 16), .op2 .uadd16 .r8 .ip .r6 .id, .op2 .uadd16 .r9 .lr .r7 .id,
  .op2 .uadd16 .sl .r8 .r9 .id, .op2 .usub16 .fp .r8 .r9 .id, .str .sl .sp 312 .off, .str .fp .sp 440 .off, .op2 .uadd16 .r8 .ip .ip .id,
  .op2 .uadd16 .r8 .r8 .r8 .id, .op2 .uadd16 .r8 .r8 .r6 .id, .op2 .uadd16 .r8 .r8 .r8 .id, .op2 .uadd16 .r9 .lr .lr .id,
  .op2 .uadd16 .r9 .r9 .r9 .id, .op2 .uadd16 .r9 .r9 .r7 .id, .op2 .uadd16 .sl .r8 .r9 .id, .op2 .usub16 .fp .r8 .r9 .id,
  .str .sl .sp 568 .off, .str .fp .sp 696 .off, .op2 .uadd16 .r8 .r7 .r7 .id, .op2 .uadd16 .r8 .r8 .r6 .id, .op2 .uadd16 .r8 .r8 .r8 .id,
  .op2 .uadd16 .r8 .r8 .lr .id, .op2 .uadd16 .r8 .r8 .r8 .id, .op2 .uadd16 .r8 .r8 .ip .id, .str .r8 .sp 184 .off, .str .ip .sp 824 .off,
  .str .r7 .sp 56 .off, .ldr .r4 .r0 240 .off, .ldr .r6 .r0 248 .off, .ldr .r5 .r0 244 .off, .ldr .r7 .r0 252 .off,
  .op2 .pkhbt .ip .r4 .r6 (.lsl 16), .op2 .pkhtb .r6 .r6 .r4 (.asr 16), .op2 .pkhbt .lr .r5 .r7 (.lsl 16),
  .op2 .pkhtb .r7 .r7 .r5 (.asr 16), .op2 .uadd16 .r8 .ip .r6 .id, .op2 .uadd16 .r9 .lr .r7 .id, .op2 .uadd16 .sl .r8 .r9 .id,
  .op2 .usub16 .fp .r8 .r9 .id, .str .sl .sp 316 .off, .str .fp .sp 444 .off, .op2 .uadd16 .r8 .ip .ip .id, .op2 .uadd16 .r8 .r8 .r8 .id,
  .op2 .uadd16 .r8 .r8 .r6 .id, .op2 .uadd16 .r8 .r8 .r8 .id, .op2 .uadd16 .r9 .lr .lr .id, .op2 .uadd16 .r9 .r9 .r9 .id,
  .op2 .uadd16 .r9 .r9 .r7 .id, .op2 .uadd16 .sl .r8 .r9 .id, .op2 .usub16 .fp .r8 .r9 .id, .str .sl .sp 572 .off, .str .fp .sp 700 .off,
  .op2 .uadd16 .r8 .r7 .r7 .id, .op2 .uadd16 .r8 .r8 .r6 .id, .op2 .uadd16 .r8 .r8 .r8 .id, .op2 .uadd16 .r8 .r8 .lr .id,
  .op2 .uadd16 .r8 .r8 .r8 .id, .op2 .uadd16 .r8 .r8 .ip .id, .str .r8 .sp 188 .off, .str .ip .sp 828 .off, .str .r7 .sp 60 .off,
  .ldr .r4 .r0 256 .off, .ldr .r6 .r0 264 .off, .ldr .r5 .r0 260 .off, .ldr .r7 .r0 268 .off, .op2 .pkhbt .ip .r4 .r6 (.lsl 16),
  .op2 .pkhtb .r6 .r6 .r4 (.asr 16), .op2 .pkhbt .lr .r5 .r7 (.lsl 16), .op2 .pkhtb .r7 .r7 .r5 (.asr 16), .op2 .uadd16 .r8 .ip .r6 .id,
  .op2 .uadd16 .r9 .lr .r7 .id, .op2 .uadd16 .sl .r8 .r9 .id, .op2 .usub16 .fp .r8 .r9 .id, .str .sl .sp 320 .off, .str .fp .sp 448 .off,
  .op2 .uadd16 .r8 .ip .ip .id, .op2 .uadd16 .r8 .r8 .r8 .id, .op2 .uadd16 .r8 .r8 .r6 .id, .op2 .uadd16 .r8 .r8 .r8 .id,
  .op2 .uadd16 .r9 .lr .lr .id, .op2 .uadd16 .r9 .r9 .r9 .id, .op2 .uadd16 .r9 .r9 .r7 .id, .op2 .uadd16 .sl .r8 .r9 .id,
  .op2 .usub16 .fp .r8 .r9 .id, .str .sl .sp 576 .off, .str .fp .sp 704 .off, .op2 .uadd16 .r8 .r7 .r7 .id, .op2 .uadd16 .r8 .r8 .r6 .id,
  .op2 .uadd16 .r8 .r8 .r8 .id, .op2 .uadd16 .r8 .r8 .lr .id, .op2 .uadd16 .r8 .r8 .r8 .id, .op2 .uadd16 .r8 .r8 .ip .id,
  .str .r8 .sp 192 .off, .str .ip .sp 832 .off, .str .r7 .sp 64 .off, .ldr .r4 .r0 272 .off, .ldr .r6 .r0 280 .off,
  .ldr .r5 .r0 276 .off, .ldr .r7 .r0 284 .off, .op2 .pkhbt .ip .r4 .r6 (.lsl 16), .op2 .pkhtb .r6 .r6 .r4 (.asr 16),
  .op2 .pkhbt .lr .r5 .r7 (.lsl 16), .op2 .pkhtb .r7 .r7 .r5 (.asr 16), .op2 .uadd16 .r8 .ip .r6 .id, .op2 .uadd16 .r9 .lr .r7 .id,
  .op2 .uadd16 .sl .r8 .r9 .id, .op2 .usub16 .fp .r8 .r9 .id, .str .sl .sp 324 .off, .str .fp .sp 452 .off, .op2 .uadd16 .r8 .ip .ip .id,
  .op2 .uadd16 .r8 .r8 .r8 .id, .op2 .uadd16 .r8 .r8 .r6 .id, .op2 .uadd16 .r8 .r8 .r8 .id, .op2 .uadd16 .r9 .lr .lr .id,
  .op2 .uadd16 .r9 .r9 .r9 .id]

/-- tc.s:607-726 -/
def toom_cook_4way_striding_asm_6 : List Ins := [
  .op2 .uadd16 .r9 .r9 .r7 .id, .op2 .uadd16 .sl .r8 .r9 .id, .op2 .usub16 .fp .r8 .r9 .id, .str .sl .sp 580 .off, .str .fp .sp 708 .off,
  .op2 .uadd16 .r8 .r7 .r7 .id, .op2 .uadd16 .r8 .r8 .r6 .id, .op2 .uadd16 .r8 .r8 .r8 .id, .op2 .uadd16 .r8 .r8 .lr .id,
  .op2 .uadd16 .r8 .r8 .r8 .id, .op2 .uadd16 .r8 .r8 .ip .id, .str .r8 .sp 196 .off, .str .ip .sp 836 .off, .str .r7 .sp 68 .off,
  .ldr .r4 .r0 288 .off, .ldr .r6 .r0 296 .off, .ldr .r5 .r0 292 .off, .ldr .r7 .r0 300 .off, .op2 .pkhbt .ip .r4 .r6 (.lsl 16),
  .op2 .pkhtb .r6 .r6 .r4 (.asr 16), .op2 .pkhbt .lr .r5 .r7 (.lsl 16), .op2 .pkhtb .r7 .r7 .r5 (.asr 16), .op2 .uadd16 .r8 .ip .r6 .id,
  .op2 .uadd16 .r9 .lr .r7 .id, .op2 .uadd16 .sl .r8 .r9 .id, .op2 .usub16 .fp .r8 .r9 .id, .str .sl .sp 328 .off, .str .fp .sp 456 .off,
  .op2 .uadd16 .r8 .ip .ip .id, .op2 .uadd16 .r8 .r8 .r8 .id, .op2 .uadd16 .r8 .r8 .r6 .id, .op2 .uadd16 .r8 .r8 .r8 .id,
  .op2 .uadd16 .r9 .lr .lr .id, .op2 .uadd16 .r9 .r9 .r9 .id, .op2 .uadd16 .r9 .r9 .r7 .id, .op2 .uadd16 .sl .r8 .r9 .id,
  .op2 .usub16 .fp .r8 .r9 .id, .str .sl .sp 584 .off, .str .fp .sp 712 .off, .op2 .uadd16 .r8 .r7 .r7 .id, .op2 .uadd16 .r8 .r8 .r6 .id,
  .op2 .uadd16 .r8 .r8 .r8 .id, .op2 .uadd16 .r8 .r8 .lr .id, .op2 .uadd16 .r8 .r8 .r8 .id, .op2 .uadd16 .r8 .r8 .ip .id,
  .str .r8 .sp 200 .off, .str .ip .sp 840 .off, .str .r7 .sp 72 .off, .ldr .r4 .r0 304 .off, .ldr .r6 .r0 312 .off,
  .ldr .r5 .r0 308 .off, .ldr .r7 .r0 316 .off, .op2 .pkhbt .ip .r4 .r6 (.lsl 16), .op2 .pkhtb .r6 .r6 .r4 (.asr 16),
  .op2 .pkhbt .lr .r5 .r7 (.lsl 16), .op2 .pkhtb .r7 .r7 .r5 (.asr 16), .op2 .uadd16 .r8 .ip .r6 .id, .op2 .uadd16 .r9 .lr .r7 .id,
  .op2 .uadd16 .sl .r8 .r9 .id, .op2 .usub16 .fp .r8 .r9 .id, .str .sl .sp 332 .off, .str .fp .sp 460 .off, .op2 .uadd16 .r8 .ip .ip .id,
  .op2 .uadd16 .r8 .r8 .r8 .id, .op2 .uadd16 .r8 .r8 .r6 .id, .op2 .uadd16 .r8 .r8 .r8 .id, .op2 .uadd16 .r9 .lr .lr .id,
  .op2 .uadd16 .r9 .r9 .r9 .id, .op2 .uadd16 .r9 .r9 .r7 .id, .op2 .uadd16 .sl .r8 .r9 .id, .op2 .usub16 .fp .r8 .r9 .id,
  .str .sl .sp 588 .off, .str .fp .sp 716 .off, .op2 .uadd16 .r8 .r7 .r7 .id, .op2 .uadd16 .r8 .r8 .r6 .id, .op2 .uadd16 .r8 .r8 .r8 .id,
  .op2 .uadd16 .r8 .r8 .lr .id, .op2 .uadd16 .r8 .r8 .r8 .id, .op2 .uadd16 .r8 .r8 .ip .id, .str .r8 .sp 204 .off, .str .ip .sp 844 .off,
  .str .r7 .sp 76 .off, .ldr .r4 .r0 320 .off, .ldr .r6 .r0 328 .off, .ldr .r5 .r0 324 .off, .ldr .r7 .r0 332 .off,
  .op2 .pkhbt .ip .r4 .r6 (.lsl 16), .op2 .pkhtb .r6 .r6 .r4 (.asr 16), .op2 .pkhbt .lr .r5 .r7 (.lsl 16),
  .op2 .pkhtb .r7 .r7 .r5 (.asr 16), .op2 .uadd16 .r8 .ip .r6 .id, .op2 .uadd16 .r9 .lr .r7 .id, .op2 .uadd16 .sl .r8 .r9 .id,
  .op2 .usub16 .fp .r8 .r9 .id, .str .sl .sp 336 .off, .str .fp .sp 464 .off, .op2 .uadd16 .r8 .ip .ip .id, .op2 .uadd16 .r8 .r8 .r8 .id,
  .op2 .uadd16 .r8 .r8 .r6 .id, .op2 .uadd16 .r8 .r8 .r8 .id, .op2 .uadd16 .r9 .lr .lr .id, .op2 .uadd16 .r9 .r9 .r9 .id,
  .op2 .uadd16 .r9 .r9 .r7 .id, .op2 .uadd16 .sl .r8 .r9 .id, .op2 .usub16 .fp .r8 .r9 .id, .str .sl .sp 592 .off, .str .fp .sp 720 .off,
  .op2 .uadd16 .r8 .r7 .r7 .id, .op2 .uadd16 .r8 .r8 .r6 .id, .op2 .uadd16 .r8 .r8 .r8 .id, .op2 .uadd16 .r8 .r8 .lr .id,
  .op2 .uadd16 .r8 .r8 .r8 .id, .op2 .uadd16 .r8 .r8 .ip .id, .str .r8 .sp 208 .off, .str .ip .sp 848 .off, .str .r7 .sp 80 .off,
  .ldr .r4 .r0 336 .off, .ldr .r6 .r0 344 .off, .ldr .r5 .r0 340 .off, .ldr .r7 .r0 348 .off]

/-- tc.s:727-846 -/
def toom_cook_4way_striding_asm_7 : List Ins := [
  .op2 .pkhbt .ip .r4 .r6 (.lsl 16), .op2 .pkhtb .r6 .r6 .r4 (.asr 16), .op2 .pkhbt .lr .r5 .r7 (.lsl 16),
  .op2 .pkhtb .r7 .r7 .r5 (.asr 16), .op2 .uadd16 .r8 .ip .r6 .id, .op2 .uadd16 .r9 .lr .r7 .id, .op2 .uadd16 .sl .r8 .r9 .id,
  .op2 .usub16 .fp .r8 .r9 .id, .str .sl .sp 340 .off, .str .fp .sp 468 .off, .op2 .uadd16 .r8 .ip .ip .id, .op2 .uadd16 .r8 .r8 .r8 .id,
  .op2 .uadd16 .r8 .r8 .r6 .id, .op2 .uadd16 .r8 .r8 .r8 .id, .op2 .uadd16 .r9 .lr .lr .id, .op2 .uadd16 .r9 .r9 .r9 .id,
  .op2 .uadd16 .r9 .r9 .r7 .id, .op2 .uadd16 .sl .r8 .r9 .id, .op2 .usub16 .fp .r8 .r9 .id, .str .sl .sp 596 .off, .str .fp .sp 724 .off,
  .op2 .uadd16 .r8 .r7 .r7 .id, .op2 .uadd16 .r8 .r8 .r6 .id, .op2 .uadd16 .r8 .r8 .r8 .id, .op2 .uadd16 .r8 .r8 .lr .id,
  .op2 .uadd16 .r8 .r8 .r8 .id, .op2 .uadd16 .r8 .r8 .ip .id, .str .r8 .sp 212 .off, .str .ip .sp 852 .off, .str .r7 .sp 84 .off,
  .ldr .r4 .r0 352 .off, .ldr .r6 .r0 360 .off, .ldr .r5 .r0 356 .off, .ldr .r7 .r0 364 .off, .op2 .pkhbt .ip .r4 .r6 (.lsl 16),
  .op2 .pkhtb .r6 .r6 .r4 (.asr 16), .op2 .pkhbt .lr .r5 .r7 (.lsl 16), .op2 .pkhtb .r7 .r7 .r5 (.asr 16), .op2 .uadd16 .r8 .ip .r6 .id,
  .op2 .uadd16 .r9 .lr .r7 .id, .op2 .uadd16 .sl .r8 .r9 .id, .op2 .usub16 .fp .r8 .r9 .id, .str .sl .sp 344 .off, .str .fp .sp 472 .off,
  .op2 .uadd16 .r8 .ip .ip .id, .op2 .uadd16 .r8 .r8 .r8 .id, .op2 .uadd16 .r8 .r8 .r6 .id, .op2 .uadd16 .r8 .r8 .r8 .id,
  .op2 .uadd16 .r9 .lr .lr .id, .op2 .uadd16 .r9 .r9 .r9 .id, .op2 .uadd16 .r9 .r9 .r7 .id, .op2 .uadd16 .sl .r8 .r9 .id,
  .op2 .usub16 .fp .r8 .r9 .id, .str .sl .sp 600 .off, .str .fp .sp 728 .off, .op2 .uadd16 .r8 .r7 .r7 .id, .op2 .uadd16 .r8 .r8 .r6 .id,
  .op2 .uadd16 .r8 .r8 .r8 .id, .op2 .uadd16 .r8 .r8 .lr .id, .op2 .uadd16 .r8 .r8 .r8 .id, .op2 .uadd16 .r8 .r8 .ip .id,
  .str .r8 .sp 216 .off, .str .ip .sp 856 .off, .str .r7 .sp 88 .off, .ldr .r4 .r0 368 .off, .ldr .r6 .r0 376 .off,
  .ldr .r5 .r0 372 .off, .ldr .r7 .r0 380 .off, .op2 .pkhbt .ip .r4 .r6 (.lsl 16), .op2 .pkhtb .r6 .r6 .r4 (.asr 16),
  .op2 .pkhbt .lr .r5 .r7 (.lsl 16), .op2 .pkhtb .r7 .r7 .r5 (.asr 16), .op2 .uadd16 .r8 .ip .r6 .id, .op2 .uadd16 .r9 .lr .r7 .id,
  .op2 .uadd16 .sl .r8 .r9 .id, .op2 .usub16 .fp .r8 .r9 .id, .str .sl .sp 348 .off, .str .fp .sp 476 .off, .op2 .uadd16 .r8 .ip .ip .id,
  .op2 .uadd16 .r8 .r8 .r8 .id, .op2 .uadd16 .r8 .r8 .r6 .id, .op2 .uadd16 .r8 .r8 .r8 .id, .op2 .uadd16 .r9 .lr .lr .id,
  .op2 .uadd16 .r9 .r9 .r9 .id, .op2 .uadd16 .r9 .r9 .r7 .id, .op2 .uadd16 .sl .r8 .r9 .id, .op2 .usub16 .fp .r8 .r9 .id,
  .str .sl .sp 604 .off, .str .fp .sp 732 .off, .op2 .uadd16 .r8 .r7 .r7 .id, .op2 .uadd16 .r8 .r8 .r6 .id, .op2 .uadd16 .r8 .r8 .r8 .id,
  .op2 .uadd16 .r8 .r8 .lr .id, .op2 .uadd16 .r8 .r8 .r8 .id, .op2 .uadd16 .r8 .r8 .ip .id, .str .r8 .sp 220 .off, .str .ip .sp 860 .off,
  .str .r7 .sp 92 .off, .ldr .r4 .r0 384 .off, .ldr .r6 .r0 392 .off, .ldr .r5 .r0 388 .off, .ldr .r7 .r0 396 .off,
  .op2 .pkhbt .ip .r4 .r6 (.lsl 16), .op2 .pkhtb .r6 .r6 .r4 (.asr 16), .op2 .pkhbt .lr .r5 .r7 (.lsl 16),
  .op2 .pkhtb .r7 .r7 .r5 (.asr 16), .op2 .uadd16 .r8 .ip .r6 .id, .op2 .uadd16 .r9 .lr .r7 .id, .op2 .uadd16 .sl .r8 .r9 .id,
  .op2 .usub16 .fp .r8 .r9 .id, .str .sl .sp 352 .off, .str .fp .sp 480 .off, .op2 .uadd16 .r8 .ip .ip .id, .op2 .uadd16 .r8 .r8 .r8 .id,
  .op2 .uadd16 .r8 .r8 .r6 .id, .op2 .uadd16 .r8 .r8 .r8 .id, .op2 .uadd16 .r9 .lr .lr .id, .op2 .uadd16 .r9 .r9 .r9 .id,
  .op2 .uadd16 .r9 .r9 .r7 .id, .op2 .uadd16 .sl .r8 .r9 .id]

/-- tc.s:847-966 -/
def toom_cook_4way_striding_asm_8 : List Ins := [
  .op2 .usub16 .fp .r8 .r9 .id, .str .sl .sp 608 .off, .str .fp .sp 736 .off, .op2 .uadd16 .r8 .r7 .r7 .id, .op2 .uadd16 .r8 .r8 .r6 .id,
  .op2 .uadd16 .r8 .r8 .r8 .id, .op2 .uadd16 .r8 .r8 .lr .id, .op2 .uadd16 .r8 .r8 .r8 .id, .op2 .uadd16 .r8 .r8 .ip .id,
  .str .r8 .sp 224 .off, .str .ip .sp 864 .off, .str .r7 .sp 96 .off, .ldr .r4 .r0 400 .off, .ldr .r6 .r0 408 .off,
  .ldr .r5 .r0 404 .off, .ldr .r7 .r0 412 .off, .op2 .pkhbt .ip .r4 .r6 (.lsl 16), .op2 .pkhtb .r6 .r6 .r4 (.asr 16),
  .op2 .pkhbt .lr .r5 .r7 (.lsl 16), .op2 .pkhtb .r7 .r7 .r5 (.asr 16), .op2 .uadd16 .r8 .ip .r6 .id, .op2 .uadd16 .r9 .lr .r7 .id,
  .op2 .uadd16 .sl .r8 .r9 .id, .op2 .usub16 .fp .r8 .r9 .id, .str .sl .sp 356 .off, .str .fp .sp 484 .off, .op2 .uadd16 .r8 .ip .ip .id,
  .op2 .uadd16 .r8 .r8 .r8 .id, .op2 .uadd16 .r8 .r8 .r6 .id, .op2 .uadd16 .r8 .r8 .r8 .id, .op2 .uadd16 .r9 .lr .lr .id,
  .op2 .uadd16 .r9 .r9 .r9 .id, .op2 .uadd16 .r9 .r9 .r7 .id, .op2 .uadd16 .sl .r8 .r9 .id, .op2 .usub16 .fp .r8 .r9 .id,
  .str .sl .sp 612 .off, .str .fp .sp 740 .off, .op2 .uadd16 .r8 .r7 .r7 .id, .op2 .uadd16 .r8 .r8 .r6 .id, .op2 .uadd16 .r8 .r8 .r8 .id,
  .op2 .uadd16 .r8 .r8 .lr .id, .op2 .uadd16 .r8 .r8 .r8 .id, .op2 .uadd16 .r8 .r8 .ip .id, .str .r8 .sp 228 .off, .str .ip .sp 868 .off,
  .str .r7 .sp 100 .off, .ldr .r4 .r0 416 .off, .ldr .r6 .r0 424 .off, .ldr .r5 .r0 420 .off, .ldr .r7 .r0 428 .off,
  .op2 .pkhbt .ip .r4 .r6 (.lsl 16), .op2 .pkhtb .r6 .r6 .r4 (.asr 16), .op2 .pkhbt .lr .r5 .r7 (.lsl 16),
  .op2 .pkhtb .r7 .r7 .r5 (.asr 16), .op2 .uadd16 .r8 .ip .r6 .id, .op2 .uadd16 .r9 .lr .r7 .id, .op2 .uadd16 .sl .r8 .r9 .id,
  .op2 .usub16 .fp .r8 .r9 .id, .str .sl .sp 360 .off, .str .fp .sp 488 .off, .op2 .uadd16 .r8 .ip .ip .id, .op2 .uadd16 .r8 .r8 .r8 .id,
  .op2 .uadd16 .r8 .r8 .r6 .id, .op2 .uadd16 .r8 .r8 .r8 .id, .op2 .uadd16 .r9 .lr .lr .id, .op2 .uadd16 .r9 .r9 .r9 .id,
  .op2 .uadd16 .r9 .r9 .r7 .id, .op2 .uadd16 .sl .r8 .r9 .id, .op2 .usub16 .fp .r8 .r9 .id, .str .sl .sp 616 .off, .str .fp .sp 744 .off,
  .op2 .uadd16 .r8 .r7 .r7 .id, .op2 .uadd16 .r8 .r8 .r6 .id, .op2 .uadd16 .r8 .r8 .r8 .id, .op2 .uadd16 .r8 .r8 .lr .id,
  .op2 .uadd16 .r8 .r8 .r8 .id, .op2 .uadd16 .r8 .r8 .ip .id, .str .r8 .sp 232 .off, .str .ip .sp 872 .off, .str .r7 .sp 104 .off,
  .ldr .r4 .r0 432 .off, .ldr .r6 .r0 440 .off, .ldr .r5 .r0 436 .off, .ldr .r7 .r0 444 .off, .op2 .pkhbt .ip .r4 .r6 (.lsl 16),
  .op2 .pkhtb .r6 .r6 .r4 (.asr 16), .op2 .pkhbt .lr .r5 .r7 (.lsl 16), .op2 .pkhtb .r7 .r7 .r5 (.asr 16), .op2 .uadd16 .r8 .ip .r6 .id,
  .op2 .uadd16 .r9 .lr .r7 .id, .op2 .uadd16 .sl .r8 .r9 .id, .op2 .usub16 .fp .r8 .r9 .id, .str .sl .sp 364 .off, .str .fp .sp 492 .off,
  .op2 .uadd16 .r8 .ip .ip .id, .op2 .uadd16 .r8 .r8 .r8 .id, .op2 .uadd16 .r8 .r8 .r6 .id, .op2 .uadd16 .r8 .r8 .r8 .id,
  .op2 .uadd16 .r9 .lr .lr .id, .op2 .uadd16 .r9 .r9 .r9 .id, .op2 .uadd16 .r9 .r9 .r7 .id, .op2 .uadd16 .sl .r8 .r9 .id,
  .op2 .usub16 .fp .r8 .r9 .id, .str .sl .sp 620 .off, .str .fp .sp 748 .off, .op2 .uadd16 .r8 .r7 .r7 .id, .op2 .uadd16 .r8 .r8 .r6 .id,
  .op2 .uadd16 .r8 .r8 .r8 .id, .op2 .uadd16 .r8 .r8 .lr .id, .op2 .uadd16 .r8 .r8 .r8 .id, .op2 .uadd16 .r8 .r8 .ip .id,
  .str .r8 .sp 236 .off, .str .ip .sp 876 .off, .str .r7 .sp 108 .off, .ldr .r4 .r0 448 .off, .ldr .r6 .r0 456 .off,
  .ldr .r5 .r0 452 .off, .ldr .r7 .r0 460 .off, .op2 .pkhbt .ip .r4 .r6 (.lsl 16), .op2 .pkhtb .r6 .r6 .r4 (.asr 16)]

/-- tc.s:967-1086 -/
def toom_cook_4way_striding_asm_9 : List Ins := [
  .op2 .pkhbt .lr .r5 .r7 (.lsl 16), .op2 .pkhtb .r7 .r7 .r5 (.asr 16), .op2 .uadd16 .r8 .ip .r6 .id, .op2 .uadd16 .r9 .lr .r7 .id,
  .op2 .uadd16 .sl .r8 .r9 .id, .op2 .usub16 .fp .r8 .r9 .id, .str .sl .sp 368 .off, .str .fp .sp 496 .off, .op2 .uadd16 .r8 .ip .ip .id,
  .op2 .uadd16 .r8 .r8 .r8 .id, .op2 .uadd16 .r8 .r8 .r6 .id, .op2 .uadd16 .r8 .r8 .r8 .id, .op2 .uadd16 .r9 .lr .lr .id,
  .op2 .uadd16 .r9 .r9 .r9 .id, .op2 .uadd16 .r9 .r9 .r7 .id, .op2 .uadd16 .sl .r8 .r9 .id, .op2 .usub16 .fp .r8 .r9 .id,
  .str .sl .sp 624 .off, .str .fp .sp 752 .off, .op2 .uadd16 .r8 .r7 .r7 .id, .op2 .uadd16 .r8 .r8 .r6 .id, .op2 .uadd16 .r8 .r8 .r8 .id,
  .op2 .uadd16 .r8 .r8 .lr .id, .op2 .uadd16 .r8 .r8 .r8 .id, .op2 .uadd16 .r8 .r8 .ip .id, .str .r8 .sp 240 .off, .str .ip .sp 880 .off,
  .str .r7 .sp 112 .off, .ldr .r4 .r0 464 .off, .ldr .r6 .r0 472 .off, .ldr .r5 .r0 468 .off, .ldr .r7 .r0 476 .off,
  .op2 .pkhbt .ip .r4 .r6 (.lsl 16), .op2 .pkhtb .r6 .r6 .r4 (.asr 16), .op2 .pkhbt .lr .r5 .r7 (.lsl 16),
  .op2 .pkhtb .r7 .r7 .r5 (.asr 16), .op2 .uadd16 .r8 .ip .r6 .id, .op2 .uadd16 .r9 .lr .r7 .id, .op2 .uadd16 .sl .r8 .r9 .id,
  .op2 .usub16 .fp .r8 .r9 .id, .str .sl .sp 372 .off, .str .fp .sp 500 .off, .op2 .uadd16 .r8 .ip .ip .id, .op2 .uadd16 .r8 .r8 .r8 .id,
  .op2 .uadd16 .r8 .r8 .r6 .id, .op2 .uadd16 .r8 .r8 .r8 .id, .op2 .uadd16 .r9 .lr .lr .id, .op2 .uadd16 .r9 .r9 .r9 .id,
  .op2 .uadd16 .r9 .r9 .r7 .id, .op2 .uadd16 .sl .r8 .r9 .id, .op2 .usub16 .fp .r8 .r9 .id, .str .sl .sp 628 .off, .str .fp .sp 756 .off,
  .op2 .uadd16 .r8 .r7 .r7 .id, .op2 .uadd16 .r8 .r8 .r6 .id, .op2 .uadd16 .r8 .r8 .r8 .id, .op2 .uadd16 .r8 .r8 .lr .id,
  .op2 .uadd16 .r8 .r8 .r8 .id, .op2 .uadd16 .r8 .r8 .ip .id, .str .r8 .sp 244 .off, .str .ip .sp 884 .off, .str .r7 .sp 116 .off,
  .ldr .r4 .r0 480 .off, .ldr .r6 .r0 488 .off, .ldr .r5 .r0 484 .off, .ldr .r7 .r0 492 .off, .op2 .pkhbt .ip .r4 .r6 (.lsl 16),
  .op2 .pkhtb .r6 .r6 .r4 (.asr 16), .op2 .pkhbt .lr .r5 .r7 (.lsl 16), .op2 .pkhtb .r7 .r7 .r5 (.asr 16), .op2 .uadd16 .r8 .ip .r6 .id,
  .op2 .uadd16 .r9 .lr .r7 .id, .op2 .uadd16 .sl .r8 .r9 .id, .op2 .usub16 .fp .r8 .r9 .id, .str .sl .sp 376 .off, .str .fp .sp 504 .off,
  .op2 .uadd16 .r8 .ip .ip .id, .op2 .uadd16 .r8 .r8 .r8 .id, .op2 .uadd16 .r8 .r8 .r6 .id, .op2 .uadd16 .r8 .r8 .r8 .id,
  .op2 .uadd16 .r9 .lr .lr .id, .op2 .uadd16 .r9 .r9 .r9 .id, .op2 .uadd16 .r9 .r9 .r7 .id, .op2 .uadd16 .sl .r8 .r9 .id,
  .op2 .usub16 .fp .r8 .r9 .id, .str .sl .sp 632 .off, .str .fp .sp 760 .off, .op2 .uadd16 .r8 .r7 .r7 .id, .op2 .uadd16 .r8 .r8 .r6 .id,
  .op2 .uadd16 .r8 .r8 .r8 .id, .op2 .uadd16 .r8 .r8 .lr .id, .op2 .uadd16 .r8 .r8 .r8 .id, .op2 .uadd16 .r8 .r8 .ip .id,
  .str .r8 .sp 248 .off, .str .ip .sp 888 .off, .str .r7 .sp 120 .off, .ldr .r4 .r0 496 .off, .ldr .r6 .r0 504 .off,
  .ldr .r5 .r0 500 .off, .ldr .r7 .r0 508 .off, .op2 .pkhbt .ip .r4 .r6 (.lsl 16), .op2 .pkhtb .r6 .r6 .r4 (.asr 16),
  .op2 .pkhbt .lr .r5 .r7 (.lsl 16), .op2 .pkhtb .r7 .r7 .r5 (.asr 16), .op2 .uadd16 .r8 .ip .r6 .id, .op2 .uadd16 .r9 .lr .r7 .id,
  .op2 .uadd16 .sl .r8 .r9 .id, .op2 .usub16 .fp .r8 .r9 .id, .str .sl .sp 380 .off, .str .fp .sp 508 .off, .op2 .uadd16 .r8 .ip .ip .id,
  .op2 .uadd16 .r8 .r8 .r8 .id, .op2 .uadd16 .r8 .r8 .r6 .id, .op2 .uadd16 .r8 .r8 .r8 .id, .op2 .uadd16 .r9 .lr .lr .id,
  .op2 .uadd16 .r9 .r9 .r9 .id, .op2 .uadd16 .r9 .r9 .r7 .id, .op2 .uadd16 .sl .r8 .r9 .id, .op2 .usub16 .fp .r8 .r9 .id,
  .str .sl .sp 636 .off]

/-- tc.s:1087-1206 -/
def toom_cook_4way_striding_asm_10 : List Ins := [
  .str .fp .sp 764 .off, .op2 .uadd16 .r8 .r7 .r7 .id, .op2 .uadd16 .r8 .r8 .r6 .id, .op2 .uadd16 .r8 .r8 .r8 .id,
  .op2 .uadd16 .r8 .r8 .lr .id, .op2 .uadd16 .r8 .r8 .r8 .id, .op2 .uadd16 .r8 .r8 .ip .id, .str .r8 .sp 252 .off, .str .ip .sp 892 .off,
  .str .r7 .sp 124 .off, .ldr .r4 .r1 0 .off, .ldr .r6 .r1 8 .off, .ldr .r5 .r1 4 .off, .ldr .r7 .r1 12 .off,
  .op2 .pkhbt .ip .r4 .r6 (.lsl 16), .op2 .pkhtb .r6 .r6 .r4 (.asr 16), .op2 .pkhbt .lr .r5 .r7 (.lsl 16),
  .op2 .pkhtb .r7 .r7 .r5 (.asr 16), .op2 .uadd16 .r8 .ip .r6 .id, .op2 .uadd16 .r9 .lr .r7 .id, .op2 .uadd16 .sl .r8 .r9 .id,
  .op2 .usub16 .fp .r8 .r9 .id, .str .sl .sp 1024 .off, .str .fp .sp 1152 .off, .op2 .uadd16 .r8 .ip .ip .id,
  .op2 .uadd16 .r8 .r8 .r8 .id, .op2 .uadd16 .r8 .r8 .r6 .id, .op2 .uadd16 .r8 .r8 .r8 .id, .op2 .uadd16 .r9 .lr .lr .id,
  .op2 .uadd16 .r9 .r9 .r9 .id, .op2 .uadd16 .r9 .r9 .r7 .id, .op2 .uadd16 .sl .r8 .r9 .id, .op2 .usub16 .fp .r8 .r9 .id,
  .str .sl .sp 1280 .off, .str .fp .sp 1408 .off, .op2 .uadd16 .r8 .r7 .r7 .id, .op2 .uadd16 .r8 .r8 .r6 .id,
  .op2 .uadd16 .r8 .r8 .r8 .id, .op2 .uadd16 .r8 .r8 .lr .id, .op2 .uadd16 .r8 .r8 .r8 .id, .op2 .uadd16 .r8 .r8 .ip .id,
  .str .r8 .sp 896 .off, .str .ip .sp 1536 .off, .str .r7 .r1 0 .off, .ldr .r4 .r1 16 .off, .ldr .r6 .r1 24 .off, .ldr .r5 .r1 20 .off,
  .ldr .r7 .r1 28 .off, .op2 .pkhbt .ip .r4 .r6 (.lsl 16), .op2 .pkhtb .r6 .r6 .r4 (.asr 16), .op2 .pkhbt .lr .r5 .r7 (.lsl 16),
  .op2 .pkhtb .r7 .r7 .r5 (.asr 16), .op2 .uadd16 .r8 .ip .r6 .id, .op2 .uadd16 .r9 .lr .r7 .id, .op2 .uadd16 .sl .r8 .r9 .id,
  .op2 .usub16 .fp .r8 .r9 .id, .str .sl .sp 1028 .off, .str .fp .sp 1156 .off, .op2 .uadd16 .r8 .ip .ip .id,
  .op2 .uadd16 .r8 .r8 .r8 .id, .op2 .uadd16 .r8 .r8 .r6 .id, .op2 .uadd16 .r8 .r8 .r8 .id, .op2 .uadd16 .r9 .lr .lr .id,
  .op2 .uadd16 .r9 .r9 .r9 .id, .op2 .uadd16 .r9 .r9 .r7 .id, .op2 .uadd16 .sl .r8 .r9 .id, .op2 .usub16 .fp .r8 .r9 .id,
  .str .sl .sp 1284 .off, .str .fp .sp 1412 .off, .op2 .uadd16 .r8 .r7 .r7 .id, .op2 .uadd16 .r8 .r8 .r6 .id,
  .op2 .uadd16 .r8 .r8 .r8 .id, .op2 .uadd16 .r8 .r8 .lr .id, .op2 .uadd16 .r8 .r8 .r8 .id, .op2 .uadd16 .r8 .r8 .ip .id,
  .str .r8 .sp 900 .off, .str .ip .sp 1540 .off, .str .r7 .r1 4 .off, .ldr .r4 .r1 32 .off, .ldr .r6 .r1 40 .off, .ldr .r5 .r1 36 .off,
  .ldr .r7 .r1 44 .off, .op2 .pkhbt .ip .r4 .r6 (.lsl 16), .op2 .pkhtb .r6 .r6 .r4 (.asr 16), .op2 .pkhbt .lr .r5 .r7 (.lsl 16),
  .op2 .pkhtb .r7 .r7 .r5 (.asr 16), .op2 .uadd16 .r8 .ip .r6 .id, .op2 .uadd16 .r9 .lr .r7 .id, .op2 .uadd16 .sl .r8 .r9 .id,
  .op2 .usub16 .fp .r8 .r9 .id, .str .sl .sp 1032 .off, .str .fp .sp 1160 .off, .op2 .uadd16 .r8 .ip .ip .id,
  .op2 .uadd16 .r8 .r8 .r8 .id, .op2 .uadd16 .r8 .r8 .r6 .id, .op2 .uadd16 .r8 .r8 .r8 .id, .op2 .uadd16 .r9 .lr .lr .id,
  .op2 .uadd16 .r9 .r9 .r9 .id, .op2 .uadd16 .r9 .r9 .r7 .id, .op2 .uadd16 .sl .r8 .r9 .id, .op2 .usub16 .fp .r8 .r9 .id,
  .str .sl .sp 1288 .off, .str .fp .sp 1416 .off, .op2 .uadd16 .r8 .r7 .r7 .id, .op2 .uadd16 .r8 .r8 .r6 .id,
  .op2 .uadd16 .r8 .r8 .r8 .id, .op2 .uadd16 .r8 .r8 .lr .id, .op2 .uadd16 .r8 .r8 .r8 .id, .op2 .uadd16 .r8 .r8 .ip .id,
  .str .r8 .sp 904 .off, .str .ip .sp 1544 .off, .str .r7 .r1 8 .off, .ldr .r4 .r1 48 .off, .ldr .r6 .r1 56 .off, .ldr .r5 .r1 52 .off,
  .ldr .r7 .r1 60 .off, .op2 .pkhbt .ip .r4 .r6 (.lsl 16), .op2 .pkhtb .r6 .r6 .r4 (.asr 16), .op2 .pkhbt .lr .r5 .r7 (.lsl 16),
  .op2 .pkhtb .r7 .r7 .r5 (.asr 16)]

/-- tc.s:1207-1326 -/
def toom_cook_4way_striding_asm_11 : List Ins := [
  .op2 .uadd16 .r8 .ip .r6 .id, .op2 .uadd16 .r9 .lr .r7 .id, .op2 .uadd16 .sl .r8 .r9 .id, .op2 .usub16 .fp .r8 .r9 .id,
  .str .sl .sp 1036 .off, .str .fp .sp 1164 .off, .op2 .uadd16 .r8 .ip .ip .id, .op2 .uadd16 .r8 .r8 .r8 .id,
  .op2 .uadd16 .r8 .r8 .r6 .id, .op2 .uadd16 .r8 .r8 .r8 .id, .op2 .uadd16 .r9 .lr .lr .id, .op2 .uadd16 .r9 .r9 .r9 .id,
  .op2 .uadd16 .r9 .r9 .r7 .id, .op2 .uadd16 .sl .r8 .r9 .id, .op2 .usub16 .fp .r8 .r9 .id, .str .sl .sp 1292 .off,
  .str .fp .sp 1420 .off, .op2 .uadd16 .r8 .r7 .r7 .id, .op2 .uadd16 .r8 .r8 .r6 .id, .op2 .uadd16 .r8 .r8 .r8 .id,
  .op2 .uadd16 .r8 .r8 .lr .id, .op2 .uadd16 .r8 .r8 .r8 .id, .op2 .uadd16 .r8 .r8 .ip .id, .str .r8 .sp 908 .off,
  .str .ip .sp 1548 .off, .str .r7 .r1 12 .off, .ldr .r4 .r1 64 .off, .ldr .r6 .r1 72 .off, .ldr .r5 .r1 68 .off, .ldr .r7 .r1 76 .off,
  .op2 .pkhbt .ip .r4 .r6 (.lsl 16), .op2 .pkhtb .r6 .r6 .r4 (.asr 16), .op2 .pkhbt .lr .r5 .r7 (.lsl 16),
  .op2 .pkhtb .r7 .r7 .r5 (.asr 16), .op2 .uadd16 .r8 .ip .r6 .id, .op2 .uadd16 .r9 .lr .r7 .id, .op2 .uadd16 .sl .r8 .r9 .id,
  .op2 .usub16 .fp .r8 .r9 .id, .str .sl .sp 1040 .off, .str .fp .sp 1168 .off, .op2 .uadd16 .r8 .ip .ip .id,
  .op2 .uadd16 .r8 .r8 .r8 .id, .op2 .uadd16 .r8 .r8 .r6 .id, .op2 .uadd16 .r8 .r8 .r8 .id, .op2 .uadd16 .r9 .lr .lr .id,
  .op2 .uadd16 .r9 .r9 .r9 .id, .op2 .uadd16 .r9 .r9 .r7 .id, .op2 .uadd16 .sl .r8 .r9 .id, .op2 .usub16 .fp .r8 .r9 .id,
  .str .sl .sp 1296 .off, .str .fp .sp 1424 .off, .op2 .uadd16 .r8 .r7 .r7 .id, .op2 .uadd16 .r8 .r8 .r6 .id,
  .op2 .uadd16 .r8 .r8 .r8 .id, .op2 .uadd16 .r8 .r8 .lr .id, .op2 .uadd16 .r8 .r8 .r8 .id, .op2 .uadd16 .r8 .r8 .ip .id,
  .str .r8 .sp 912 .off, .str .ip .sp 1552 .off, .str .r7 .r1 16 .off, .ldr .r4 .r1 80 .off, .ldr .r6 .r1 88 .off, .ldr .r5 .r1 84 .off,
  .ldr .r7 .r1 92 .off, .op2 .pkhbt .ip .r4 .r6 (.lsl 16), .op2 .pkhtb .r6 .r6 .r4 (.asr 16), .op2 .pkhbt .lr .r5 .r7 (.lsl 16),
  .op2 .pkhtb .r7 .r7 .r5 (.asr 16), .op2 .uadd16 .r8 .ip .r6 .id, .op2 .uadd16 .r9 .lr .r7 .id, .op2 .uadd16 .sl .r8 .r9 .id,
  .op2 .usub16 .fp .r8 .r9 .id, .str .sl .sp 1044 .off, .str .fp .sp 1172 .off, .op2 .uadd16 .r8 .ip .ip .id,
  .op2 .uadd16 .r8 .r8 .r8 .id, .op2 .uadd16 .r8 .r8 .r6 .id, .op2 .uadd16 .r8 .r8 .r8 .id, .op2 .uadd16 .r9 .lr .lr .id,
  .op2 .uadd16 .r9 .r9 .r9 .id, .op2 .uadd16 .r9 .r9 .r7 .id, .op2 .uadd16 .sl .r8 .r9 .id, .op2 .usub16 .fp .r8 .r9 .id,
  .str .sl .sp 1300 .off, .str .fp .sp 1428 .off, .op2 .uadd16 .r8 .r7 .r7 .id, .op2 .uadd16 .r8 .r8 .r6 .id,
  .op2 .uadd16 .r8 .r8 .r8 .id, .op2 .uadd16 .r8 .r8 .lr .id, .op2 .uadd16 .r8 .r8 .r8 .id, .op2 .uadd16 .r8 .r8 .ip .id,
  .str .r8 .sp 916 .off, .str .ip .sp 1556 .off, .str .r7 .r1 20 .off, .ldr .r4 .r1 96 .off, .ldr .r6 .r1 104 .off,
  .ldr .r5 .r1 100 .off, .ldr .r7 .r1 108 .off, .op2 .pkhbt .ip .r4 .r6 (.lsl 16), .op2 .pkhtb .r6 .r6 .r4 (.asr 16),
  .op2 .pkhbt .lr .r5 .r7 (.lsl 16), .op2 .pkhtb .r7 .r7 .r5 (.asr 16), .op2 .uadd16 .r8 .ip .r6 .id, .op2 .uadd16 .r9 .lr .r7 .id,
  .op2 .uadd16 .sl .r8 .r9 .id, .op2 .usub16 .fp .r8 .r9 .id, .str .sl .sp 1048 .off, .str .fp .sp 1176 .off,
  .op2 .uadd16 .r8 .ip .ip .id, .op2 .uadd16 .r8 .r8 .r8 .id, .op2 .uadd16 .r8 .r8 .r6 .id, .op2 .uadd16 .r8 .r8 .r8 .id,
  .op2 .uadd16 .r9 .lr .lr .id, .op2 .uadd16 .r9 .r9 .r9 .id, .op2 .uadd16 .r9 .r9 .r7 .id, .op2 .uadd16 .sl .r8 .r9 .id,
  .op2 .usub16 .fp .r8 .r9 .id, .str .sl .sp 1304 .off, .str .fp .sp 1432 .off, .op2 .uadd16 .r8 .r7 .r7 .id]

/-- tc.s:1327-1446 -/
def toom_cook_4way_striding_asm_12 : List Ins := [
  .op2 .uadd16 .r8 .r8 .r6 .id, .op2 .uadd16 .r8 .r8 .r8 .id, .op2 .uadd16 .r8 .r8 .lr .id, .op2 .uadd16 .r8 .r8 .r8 .id,
  .op2 .uadd16 .r8 .r8 .ip .id, .str .r8 .sp 920 .off, .str .ip .sp 1560 .off, .str .r7 .r1 24 .off, .ldr .r4 .r1 112 .off,
  .ldr .r6 .r1 120 .off, .ldr .r5 .r1 116 .off, .ldr .r7 .r1 124 .off, .op2 .pkhbt .ip .r4 .r6 (.lsl 16),
  .op2 .pkhtb .r6 .r6 .r4 (.asr 16), .op2 .pkhbt .lr .r5 .r7 (.lsl 16), .op2 .pkhtb .r7 .r7 .r5 (.asr 16), .op2 .uadd16 .r8 .ip .r6 .id,
  .op2 .uadd16 .r9 .lr .r7 .id, .op2 .uadd16 .sl .r8 .r9 .id, .op2 .usub16 .fp .r8 .r9 .id, .str .sl .sp 1052 .off,
  .str .fp .sp 1180 .off, .op2 .uadd16 .r8 .ip .ip .id, .op2 .uadd16 .r8 .r8 .r8 .id, .op2 .uadd16 .r8 .r8 .r6 .id,
  .op2 .uadd16 .r8 .r8 .r8 .id, .op2 .uadd16 .r9 .lr .lr .id, .op2 .uadd16 .r9 .r9 .r9 .id, .op2 .uadd16 .r9 .r9 .r7 .id,
  .op2 .uadd16 .sl .r8 .r9 .id, .op2 .usub16 .fp .r8 .r9 .id, .str .sl .sp 1308 .off, .str .fp .sp 1436 .off,
  .op2 .uadd16 .r8 .r7 .r7 .id, .op2 .uadd16 .r8 .r8 .r6 .id, .op2 .uadd16 .r8 .r8 .r8 .id, .op2 .uadd16 .r8 .r8 .lr .id,
  .op2 .uadd16 .r8 .r8 .r8 .id, .op2 .uadd16 .r8 .r8 .ip .id, .str .r8 .sp 924 .off, .str .ip .sp 1564 .off, .str .r7 .r1 28 .off,
  .ldr .r4 .r1 128 .off, .ldr .r6 .r1 136 .off, .ldr .r5 .r1 132 .off, .ldr .r7 .r1 140 .off, .op2 .pkhbt .ip .r4 .r6 (.lsl 16),
  .op2 .pkhtb .r6 .r6 .r4 (.asr 16), .op2 .pkhbt .lr .r5 .r7 (.lsl 16), .op2 .pkhtb .r7 .r7 .r5 (.asr 16), .op2 .uadd16 .r8 .ip .r6 .id,
  .op2 .uadd16 .r9 .lr .r7 .id, .op2 .uadd16 .sl .r8 .r9 .id, .op2 .usub16 .fp .r8 .r9 .id, .str .sl .sp 1056 .off,
  .str .fp .sp 1184 .off, .op2 .uadd16 .r8 .ip .ip .id, .op2 .uadd16 .r8 .r8 .r8 .id, .op2 .uadd16 .r8 .r8 .r6 .id,
  .op2 .uadd16 .r8 .r8 .r8 .id, .op2 .uadd16 .r9 .lr .lr .id, .op2 .uadd16 .r9 .r9 .r9 .id, .op2 .uadd16 .r9 .r9 .r7 .id,
  .op2 .uadd16 .sl .r8 .r9 .id, .op2 .usub16 .fp .r8 .r9 .id, .str .sl .sp 1312 .off, .str .fp .sp 1440 .off,
  .op2 .uadd16 .r8 .r7 .r7 .id, .op2 .uadd16 .r8 .r8 .r6 .id, .op2 .uadd16 .r8 .r8 .r8 .id, .op2 .uadd16 .r8 .r8 .lr .id,
  .op2 .uadd16 .r8 .r8 .r8 .id, .op2 .uadd16 .r8 .r8 .ip .id, .str .r8 .sp 928 .off, .str .ip .sp 1568 .off, .str .r7 .r1 32 .off,
  .ldr .r4 .r1 144 .off, .ldr .r6 .r1 152 .off, .ldr .r5 .r1 148 .off, .ldr .r7 .r1 156 .off, .op2 .pkhbt .ip .r4 .r6 (.lsl 16),
  .op2 .pkhtb .r6 .r6 .r4 (.asr 16), .op2 .pkhbt .lr .r5 .r7 (.lsl 16), .op2 .pkhtb .r7 .r7 .r5 (.asr 16), .op2 .uadd16 .r8 .ip .r6 .id,
  .op2 .uadd16 .r9 .lr .r7 .id, .op2 .uadd16 .sl .r8 .r9 .id, .op2 .usub16 .fp .r8 .r9 .id, .str .sl .sp 1060 .off,
  .str .fp .sp 1188 .off, .op2 .uadd16 .r8 .ip .ip .id, .op2 .uadd16 .r8 .r8 .r8 .id, .op2 .uadd16 .r8 .r8 .r6 .id,
  .op2 .uadd16 .r8 .r8 .r8 .id, .op2 .uadd16 .r9 .lr .lr .id, .op2 .uadd16 .r9 .r9 .r9 .id, .op2 .uadd16 .r9 .r9 .r7 .id,
  .op2 .uadd16 .sl .r8 .r9 .id, .op2 .usub16 .fp .r8 .r9 .id, .str .sl .sp 1316 .off, .str .fp .sp 1444 .off,
  .op2 .uadd16 .r8 .r7 .r7 .id, .op2 .uadd16 .r8 .r8 .r6 .id, .op2 .uadd16 .r8 .r8 .r8 .id, .op2 .uadd16 .r8 .r8 .lr .id,
  .op2 .uadd16 .r8 .r8 .r8 .id, .op2 .uadd16 .r8 .r8 .ip .id, .str .r8 .sp 932 .off, .str .ip .sp 1572 .off, .str .r7 .r1 36 .off,
  .ldr .r4 .r1 160 .off, .ldr .r6 .r1 168 .off, .ldr .r5 .r1 164 .off, .ldr .r7 .r1 172 .off, .op2 .pkhbt .ip .r4 .r6 (.lsl 16),
  .op2 .pkhtb .r6 .r6 .r4 (.asr 16), .op2 .pkhbt .lr .r5 .r7 (.lsl 16), .op2 .pkhtb .r7 .r7 .r5 (.asr 16), .op2 .uadd16 .r8 .ip .r6 .id,
  .op2 .uadd16 .r9 .lr .r7 .id]

/-- tc.s:1447-1566 -/
def toom_cook_4way_striding_asm_13 : List Ins := [
  .op2 .uadd16 .sl .r8 .r9 .id, .op2 .usub16 .fp .r8 .r9 .id, .str .sl .sp 1064 .off, .str .fp .sp 1192 .off,
  .op2 .uadd16 .r8 .ip .ip .id, .op2 .uadd16 .r8 .r8 .r8 .id, .op2 .uadd16 .r8 .r8 .r6 .id, .op2 .uadd16 .r8 .r8 .r8 .id,
  .op2 .uadd16 .r9 .lr .lr .id, .op2 .uadd16 .r9 .r9 .r9 .id, .op2 .uadd16 .r9 .r9 .r7 .id, .op2 .uadd16 .sl .r8 .r9 .id,
  .op2 .usub16 .fp .r8 .r9 .id, .str .sl .sp 1320 .off, .str .fp .sp 1448 .off, .op2 .uadd16 .r8 .r7 .r7 .id,
  .op2 .uadd16 .r8 .r8 .r6 .id, .op2 .uadd16 .r8 .r8 .r8 .id, .op2 .uadd16 .r8 .r8 .lr .id, .op2 .uadd16 .r8 .r8 .r8 .id,
  .op2 .uadd16 .r8 .r8 .ip .id, .str .r8 .sp 936 .off, .str .ip .sp 1576 .off, .str .r7 .r1 40 .off, .ldr .r4 .r1 176 .off,
  .ldr .r6 .r1 184 .off, .ldr .r5 .r1 180 .off, .ldr .r7 .r1 188 .off, .op2 .pkhbt .ip .r4 .r6 (.lsl 16),
  .op2 .pkhtb .r6 .r6 .r4 (.asr 16), .op2 .pkhbt .lr .r5 .r7 (.lsl 16), .op2 .pkhtb .r7 .r7 .r5 (.asr 16), .op2 .uadd16 .r8 .ip .r6 .id,
  .op2 .uadd16 .r9 .lr .r7 .id, .op2 .uadd16 .sl .r8 .r9 .id, .op2 .usub16 .fp .r8 .r9 .id, .str .sl .sp 1068 .off,
  .str .fp .sp 1196 .off, .op2 .uadd16 .r8 .ip .ip .id, .op2 .uadd16 .r8 .r8 .r8 .id, .op2 .uadd16 .r8 .r8 .r6 .id,
  .op2 .uadd16 .r8 .r8 .r8 .id, .op2 .uadd16 .r9 .lr .lr .id, .op2 .uadd16 .r9 .r9 .r9 .id, .op2 .uadd16 .r9 .r9 .r7 .id,
  .op2 .uadd16 .sl .r8 .r9 .id, .op2 .usub16 .fp .r8 .r9 .id, .str .sl .sp 1324 .off, .str .fp .sp 1452 .off,
  .op2 .uadd16 .r8 .r7 .r7 .id, .op2 .uadd16 .r8 .r8 .r6 .id, .op2 .uadd16 .r8 .r8 .r8 .id, .op2 .uadd16 .r8 .r8 .lr .id,
  .op2 .uadd16 .r8 .r8 .r8 .id, .op2 .uadd16 .r8 .r8 .ip .id, .str .r8 .sp 940 .off, .str .ip .sp 1580 .off, .str .r7 .r1 44 .off,
  .ldr .r4 .r1 192 .off, .ldr .r6 .r1 200 .off, .ldr .r5 .r1 196 .off, .ldr .r7 .r1 204 .off, .op2 .pkhbt .ip .r4 .r6 (.lsl 16),
  .op2 .pkhtb .r6 .r6 .r4 (.asr 16), .op2 .pkhbt .lr .r5 .r7 (.lsl 16), .op2 .pkhtb .r7 .r7 .r5 (.asr 16), .op2 .uadd16 .r8 .ip .r6 .id,
  .op2 .uadd16 .r9 .lr .r7 .id, .op2 .uadd16 .sl .r8 .r9 .id, .op2 .usub16 .fp .r8 .r9 .id, .str .sl .sp 1072 .off,
  .str .fp .sp 1200 .off, .op2 .uadd16 .r8 .ip .ip .id, .op2 .uadd16 .r8 .r8 .r8 .id, .op2 .uadd16 .r8 .r8 .r6 .id,
  .op2 .uadd16 .r8 .r8 .r8 .id, .op2 .uadd16 .r9 .lr .lr .id, .op2 .uadd16 .r9 .r9 .r9 .id, .op2 .uadd16 .r9 .r9 .r7 .id,
  .op2 .uadd16 .sl .r8 .r9 .id, .op2 .usub16 .fp .r8 .r9 .id, .str .sl .sp 1328 .off, .str .fp .sp 1456 .off,
  .op2 .uadd16 .r8 .r7 .r7 .id, .op2 .uadd16 .r8 .r8 .r6 .id, .op2 .uadd16 .r8 .r8 .r8 .id, .op2 .uadd16 .r8 .r8 .lr .id,
  .op2 .uadd16 .r8 .r8 .r8 .id, .op2 .uadd16 .r8 .r8 .ip .id, .str .r8 .sp 944 .off, .str .ip .sp 1584 .off, .str .r7 .r1 48 .off,
  .ldr .r4 .r1 208 .off, .ldr .r6 .r1 216 .off, .ldr .r5 .r1 212 .off, .ldr .r7 .r1 220 .off, .op2 .pkhbt .ip .r4 .r6 (.lsl 16),
  .op2 .pkhtb .r6 .r6 .r4 (.asr 16), .op2 .pkhbt .lr .r5 .r7 (.lsl 16), .op2 .pkhtb .r7 .r7 .r5 (.asr 16), .op2 .uadd16 .r8 .ip .r6 .id,
  .op2 .uadd16 .r9 .lr .r7 .id, .op2 .uadd16 .sl .r8 .r9 .id, .op2 .usub16 .fp .r8 .r9 .id, .str .sl .sp 1076 .off,
  .str .fp .sp 1204 .off, .op2 .uadd16 .r8 .ip .ip .id, .op2 .uadd16 .r8 .r8 .r8 .id, .op2 .uadd16 .r8 .r8 .r6 .id,
  .op2 .uadd16 .r8 .r8 .r8 .id, .op2 .uadd16 .r9 .lr .lr .id, .op2 .uadd16 .r9 .r9 .r9 .id, .op2 .uadd16 .r9 .r9 .r7 .id,
  .op2 .uadd16 .sl .r8 .r9 .id, .op2 .usub16 .fp .r8 .r9 .id, .str .sl .sp 1332 .off, .str .fp .sp 1460 .off,
  .op2 .uadd16 .r8 .r7 .r7 .id, .op2 .uadd16 .r8 .r8 .r6 .id, .op2 .uadd16 .r8 .r8 .r8 .id]

/-- tc.s:1567-1686 -/
def toom_cook_4way_striding_asm_14 : List Ins := [
  .op2 .uadd16 .r8 .r8 .lr .id, .op2 .uadd16 .r8 .r8 .r8 .id, .op2 .uadd16 .r8 .r8 .ip .id, .str .r8 .sp 948 .off,
  .str .ip .sp 1588 .off, .str .r7 .r1 52 .off, .ldr .r4 .r1 224 .off, .ldr .r6 .r1 232 .off, .ldr .r5 .r1 228 .off,
  .ldr .r7 .r1 236 .off, .op2 .pkhbt .ip .r4 .r6 (.lsl 16), .op2 .pkhtb .r6 .r6 .r4 (.asr 16), .op2 .pkhbt .lr .r5 .r7 (.lsl 16),
  .op2 .pkhtb .r7 .r7 .r5 (.asr 16), .op2 .uadd16 .r8 .ip .r6 .id, .op2 .uadd16 .r9 .lr .r7 .id, .op2 .uadd16 .sl .r8 .r9 .id,
  .op2 .usub16 .fp .r8 .r9 .id, .str .sl .sp 1080 .off, .str .fp .sp 1208 .off, .op2 .uadd16 .r8 .ip .ip .id,
  .op2 .uadd16 .r8 .r8 .r8 .id, .op2 .uadd16 .r8 .r8 .r6 .id, .op2 .uadd16 .r8 .r8 .r8 .id, .op2 .uadd16 .r9 .lr .lr .id,
  .op2 .uadd16 .r9 .r9 .r9 .id, .op2 .uadd16 .r9 .r9 .r7 .id, .op2 .uadd16 .sl .r8 .r9 .id, .op2 .usub16 .fp .r8 .r9 .id,
  .str .sl .sp 1336 .off, .str .fp .sp 1464 .off, .op2 .uadd16 .r8 .r7 .r7 .id, .op2 .uadd16 .r8 .r8 .r6 .id,
  .op2 .uadd16 .r8 .r8 .r8 .id, .op2 .uadd16 .r8 .r8 .lr .id, .op2 .uadd16 .r8 .r8 .r8 .id, .op2 .uadd16 .r8 .r8 .ip .id,
  .str .r8 .sp 952 .off, .str .ip .sp 1592 .off, .str .r7 .r1 56 .off, .ldr .r4 .r1 240 .off, .ldr .r6 .r1 248 .off,
  .ldr .r5 .r1 244 .off, .ldr .r7 .r1 252 .off, .op2 .pkhbt .ip .r4 .r6 (.lsl 16), .op2 .pkhtb .r6 .r6 .r4 (.asr 16),
  .op2 .pkhbt .lr .r5 .r7 (.lsl 16), .op2 .pkhtb .r7 .r7 .r5 (.asr 16), .op2 .uadd16 .r8 .ip .r6 .id, .op2 .uadd16 .r9 .lr .r7 .id,
  .op2 .uadd16 .sl .r8 .r9 .id, .op2 .usub16 .fp .r8 .r9 .id, .str .sl .sp 1084 .off, .str .fp .sp 1212 .off,
  .op2 .uadd16 .r8 .ip .ip .id, .op2 .uadd16 .r8 .r8 .r8 .id, .op2 .uadd16 .r8 .r8 .r6 .id, .op2 .uadd16 .r8 .r8 .r8 .id,
  .op2 .uadd16 .r9 .lr .lr .id, .op2 .uadd16 .r9 .r9 .r9 .id, .op2 .uadd16 .r9 .r9 .r7 .id, .op2 .uadd16 .sl .r8 .r9 .id,
  .op2 .usub16 .fp .r8 .r9 .id, .str .sl .sp 1340 .off, .str .fp .sp 1468 .off, .op2 .uadd16 .r8 .r7 .r7 .id,
  .op2 .uadd16 .r8 .r8 .r6 .id, .op2 .uadd16 .r8 .r8 .r8 .id, .op2 .uadd16 .r8 .r8 .lr .id, .op2 .uadd16 .r8 .r8 .r8 .id,
  .op2 .uadd16 .r8 .r8 .ip .id, .str .r8 .sp 956 .off, .str .ip .sp 1596 .off, .str .r7 .r1 60 .off, .ldr .r4 .r1 256 .off,
  .ldr .r6 .r1 264 .off, .ldr .r5 .r1 260 .off, .ldr .r7 .r1 268 .off, .op2 .pkhbt .ip .r4 .r6 (.lsl 16),
  .op2 .pkhtb .r6 .r6 .r4 (.asr 16), .op2 .pkhbt .lr .r5 .r7 (.lsl 16), .op2 .pkhtb .r7 .r7 .r5 (.asr 16), .op2 .uadd16 .r8 .ip .r6 .id,
  .op2 .uadd16 .r9 .lr .r7 .id, .op2 .uadd16 .sl .r8 .r9 .id, .op2 .usub16 .fp .r8 .r9 .id, .str .sl .sp 1088 .off,
  .str .fp .sp 1216 .off, .op2 .uadd16 .r8 .ip .ip .id, .op2 .uadd16 .r8 .r8 .r8 .id, .op2 .uadd16 .r8 .r8 .r6 .id,
  .op2 .uadd16 .r8 .r8 .r8 .id, .op2 .uadd16 .r9 .lr .lr .id, .op2 .uadd16 .r9 .r9 .r9 .id, .op2 .uadd16 .r9 .r9 .r7 .id,
  .op2 .uadd16 .sl .r8 .r9 .id, .op2 .usub16 .fp .r8 .r9 .id, .str .sl .sp 1344 .off, .str .fp .sp 1472 .off,
  .op2 .uadd16 .r8 .r7 .r7 .id, .op2 .uadd16 .r8 .r8 .r6 .id, .op2 .uadd16 .r8 .r8 .r8 .id, .op2 .uadd16 .r8 .r8 .lr .id,
  .op2 .uadd16 .r8 .r8 .r8 .id, .op2 .uadd16 .r8 .r8 .ip .id, .str .r8 .sp 960 .off, .str .ip .sp 1600 .off, .str .r7 .r1 64 .off,
  .ldr .r4 .r1 272 .off, .ldr .r6 .r1 280 .off, .ldr .r5 .r1 276 .off, .ldr .r7 .r1 284 .off, .op2 .pkhbt .ip .r4 .r6 (.lsl 16),
  .op2 .pkhtb .r6 .r6 .r4 (.asr 16), .op2 .pkhbt .lr .r5 .r7 (.lsl 16), .op2 .pkhtb .r7 .r7 .r5 (.asr 16), .op2 .uadd16 .r8 .ip .r6 .id,
  .op2 .uadd16 .r9 .lr .r7 .id, .op2 .uadd16 .sl .r8 .r9 .id, .op2 .usub16 .fp .r8 .r9 .id]

/-- tc.s:1687-1806 -/
def toom_cook_4way_striding_asm_15 : List Ins := [
  .str .sl .sp 1092 .off, .str .fp .sp 1220 .off, .op2 .uadd16 .r8 .ip .ip .id, .op2 .uadd16 .r8 .r8 .r8 .id,
  .op2 .uadd16 .r8 .r8 .r6 .id, .op2 .uadd16 .r8 .r8 .r8 .id, .op2 .uadd16 .r9 .lr .lr .id, .op2 .uadd16 .r9 .r9 .r9 .id,
  .op2 .uadd16 .r9 .r9 .r7 .id, .op2 .uadd16 .sl .r8 .r9 .id, .op2 .usub16 .fp .r8 .r9 .id, .str .sl .sp 1348 .off,
  .str .fp .sp 1476 .off, .op2 .uadd16 .r8 .r7 .r7 .id, .op2 .uadd16 .r8 .r8 .r6 .id, .op2 .uadd16 .r8 .r8 .r8 .id,
  .op2 .uadd16 .r8 .r8 .lr .id, .op2 .uadd16 .r8 .r8 .r8 .id, .op2 .uadd16 .r8 .r8 .ip .id, .str .r8 .sp 964 .off,
  .str .ip .sp 1604 .off, .str .r7 .r1 68 .off, .ldr .r4 .r1 288 .off, .ldr .r6 .r1 296 .off, .ldr .r5 .r1 292 .off,
  .ldr .r7 .r1 300 .off, .op2 .pkhbt .ip .r4 .r6 (.lsl 16), .op2 .pkhtb .r6 .r6 .r4 (.asr 16), .op2 .pkhbt .lr .r5 .r7 (.lsl 16),
  .op2 .pkhtb .r7 .r7 .r5 (.asr 16), .op2 .uadd16 .r8 .ip .r6 .id, .op2 .uadd16 .r9 .lr .r7 .id, .op2 .uadd16 .sl .r8 .r9 .id,
  .op2 .usub16 .fp .r8 .r9 .id, .str .sl .sp 1096 .off, .str .fp .sp 1224 .off, .op2 .uadd16 .r8 .ip .ip .id,
  .op2 .uadd16 .r8 .r8 .r8 .id, .op2 .uadd16 .r8 .r8 .r6 .id, .op2 .uadd16 .r8 .r8 .r8 .id, .op2 .uadd16 .r9 .lr .lr .id,
  .op2 .uadd16 .r9 .r9 .r9 .id, .op2 .uadd16 .r9 .r9 .r7 .id, .op2 .uadd16 .sl .r8 .r9 .id, .op2 .usub16 .fp .r8 .r9 .id,
  .str .sl .sp 1352 .off, .str .fp .sp 1480 .off, .op2 .uadd16 .r8 .r7 .r7 .id, .op2 .uadd16 .r8 .r8 .r6 .id,
  .op2 .uadd16 .r8 .r8 .r8 .id, .op2 .uadd16 .r8 .r8 .lr .id, .op2 .uadd16 .r8 .r8 .r8 .id, .op2 .uadd16 .r8 .r8 .ip .id,
  .str .r8 .sp 968 .off, .str .ip .sp 1608 .off, .str .r7 .r1 72 .off, .ldr .r4 .r1 304 .off, .ldr .r6 .r1 312 .off,
  .ldr .r5 .r1 308 .off, .ldr .r7 .r1 316 .off, .op2 .pkhbt .ip .r4 .r6 (.lsl 16), .op2 .pkhtb .r6 .r6 .r4 (.asr 16),
  .op2 .pkhbt .lr .r5 .r7 (.lsl 16), .op2 .pkhtb .r7 .r7 .r5 (.asr 16), .op2 .uadd16 .r8 .ip .r6 .id, .op2 .uadd16 .r9 .lr .r7 .id,
  .op2 .uadd16 .sl .r8 .r9 .id, .op2 .usub16 .fp .r8 .r9 .id, .str .sl .sp 1100 .off, .str .fp .sp 1228 .off,
  .op2 .uadd16 .r8 .ip .ip .id, .op2 .uadd16 .r8 .r8 .r8 .id, .op2 .uadd16 .r8 .r8 .r6 .id, .op2 .uadd16 .r8 .r8 .r8 .id,
  .op2 .uadd16 .r9 .lr .lr .id, .op2 .uadd16 .r9 .r9 .r9 .id, .op2 .uadd16 .r9 .r9 .r7 .id, .op2 .uadd16 .sl .r8 .r9 .id,
  .op2 .usub16 .fp .r8 .r9 .id, .str .sl .sp 1356 .off, .str .fp .sp 1484 .off, .op2 .uadd16 .r8 .r7 .r7 .id,
  .op2 .uadd16 .r8 .r8 .r6 .id, .op2 .uadd16 .r8 .r8 .r8 .id, .op2 .uadd16 .r8 .r8 .lr .id, .op2 .uadd16 .r8 .r8 .r8 .id,
  .op2 .uadd16 .r8 .r8 .ip .id, .str .r8 .sp 972 .off, .str .ip .sp 1612 .off, .str .r7 .r1 76 .off, .ldr .r4 .r1 320 .off,
  .ldr .r6 .r1 328 .off, .ldr .r5 .r1 324 .off, .ldr .r7 .r1 332 .off, .op2 .pkhbt .ip .r4 .r6 (.lsl 16),
  .op2 .pkhtb .r6 .r6 .r4 (.asr 16), .op2 .pkhbt .lr .r5 .r7 (.lsl 16), .op2 .pkhtb .r7 .r7 .r5 (.asr 16), .op2 .uadd16 .r8 .ip .r6 .id,
  .op2 .uadd16 .r9 .lr .r7 .id, .op2 .uadd16 .sl .r8 .r9 .id, .op2 .usub16 .fp .r8 .r9 .id, .str .sl .sp 1104 .off,
  .str .fp .sp 1232 .off, .op2 .uadd16 .r8 .ip .ip .id, .op2 .uadd16 .r8 .r8 .r8 .id, .op2 .uadd16 .r8 .r8 .r6 .id,
  .op2 .uadd16 .r8 .r8 .r8 .id, .op2 .uadd16 .r9 .lr .lr .id, .op2 .uadd16 .r9 .r9 .r9 .id, .op2 .uadd16 .r9 .r9 .r7 .id,
  .op2 .uadd16 .sl .r8 .r9 .id, .op2 .usub16 .fp .r8 .r9 .id, .str .sl .sp 1360 .off, .str .fp .sp 1488 .off,
  .op2 .uadd16 .r8 .r7 .r7 .id, .op2 .uadd16 .r8 .r8 .r6 .id, .op2 .uadd16 .r8 .r8 .r8 .id, .op2 .uadd16 .r8 .r8 .lr .id,
  .op2 .uadd16 .r8 .r8 .r8 .id]

/-- tc.s:1807-1926 -/
def toom_cook_4way_striding_asm_16 : List Ins := [
  .op2 .uadd16 .r8 .r8 .ip .id, .str .r8 .sp 976 .off, .str .ip .sp 1616 .off, .str .r7 .r1 80 .off, .ldr .r4 .r1 336 .off,
  .ldr .r6 .r1 344 .off, .ldr .r5 .r1 340 .off, .ldr .r7 .r1 348 .off, .op2 .pkhbt .ip .r4 .r6 (.lsl 16),
  .op2 .pkhtb .r6 .r6 .r4 (.asr 16), .op2 .pkhbt .lr .r5 .r7 (.lsl 16), .op2 .pkhtb .r7 .r7 .r5 (.asr 16), .op2 .uadd16 .r8 .ip .r6 .id,
  .op2 .uadd16 .r9 .lr .r7 .id, .op2 .uadd16 .sl .r8 .r9 .id, .op2 .usub16 .fp .r8 .r9 .id, .str .sl .sp 1108 .off,
  .str .fp .sp 1236 .off, .op2 .uadd16 .r8 .ip .ip .id, .op2 .uadd16 .r8 .r8 .r8 .id, .op2 .uadd16 .r8 .r8 .r6 .id,
  .op2 .uadd16 .r8 .r8 .r8 .id, .op2 .uadd16 .r9 .lr .lr .id, .op2 .uadd16 .r9 .r9 .r9 .id, .op2 .uadd16 .r9 .r9 .r7 .id,
  .op2 .uadd16 .sl .r8 .r9 .id, .op2 .usub16 .fp .r8 .r9 .id, .str .sl .sp 1364 .off, .str .fp .sp 1492 .off,
  .op2 .uadd16 .r8 .r7 .r7 .id, .op2 .uadd16 .r8 .r8 .r6 .id, .op2 .uadd16 .r8 .r8 .r8 .id, .op2 .uadd16 .r8 .r8 .lr .id,
  .op2 .uadd16 .r8 .r8 .r8 .id, .op2 .uadd16 .r8 .r8 .ip .id, .str .r8 .sp 980 .off, .str .ip .sp 1620 .off, .str .r7 .r1 84 .off,
  .ldr .r4 .r1 352 .off, .ldr .r6 .r1 360 .off, .ldr .r5 .r1 356 .off, .ldr .r7 .r1 364 .off, .op2 .pkhbt .ip .r4 .r6 (.lsl 16),
  .op2 .pkhtb .r6 .r6 .r4 (.asr 16), .op2 .pkhbt .lr .r5 .r7 (.lsl 16), .op2 .pkhtb .r7 .r7 .r5 (.asr 16), .op2 .uadd16 .r8 .ip .r6 .id,
  .op2 .uadd16 .r9 .lr .r7 .id, .op2 .uadd16 .sl .r8 .r9 .id, .op2 .usub16 .fp .r8 .r9 .id, .str .sl .sp 1112 .off,
  .str .fp .sp 1240 .off, .op2 .uadd16 .r8 .ip .ip .id, .op2 .uadd16 .r8 .r8 .r8 .id, .op2 .uadd16 .r8 .r8 .r6 .id,
  .op2 .uadd16 .r8 .r8 .r8 .id, .op2 .uadd16 .r9 .lr .lr .id, .op2 .uadd16 .r9 .r9 .r9 .id, .op2 .uadd16 .r9 .r9 .r7 .id,
  .op2 .uadd16 .sl .r8 .r9 .id, .op2 .usub16 .fp .r8 .r9 .id, .str .sl .sp 1368 .off, .str .fp .sp 1496 .off,
  .op2 .uadd16 .r8 .r7 .r7 .id, .op2 .uadd16 .r8 .r8 .r6 .id, .op2 .uadd16 .r8 .r8 .r8 .id, .op2 .uadd16 .r8 .r8 .lr .id,
  .op2 .uadd16 .r8 .r8 .r8 .id, .op2 .uadd16 .r8 .r8 .ip .id, .str .r8 .sp 984 .off, .str .ip .sp 1624 .off, .str .r7 .r1 88 .off,
  .ldr .r4 .r1 368 .off, .ldr .r6 .r1 376 .off, .ldr .r5 .r1 372 .off, .ldr .r7 .r1 380 .off, .op2 .pkhbt .ip .r4 .r6 (.lsl 16),
  .op2 .pkhtb .r6 .r6 .r4 (.asr 16), .op2 .pkhbt .lr .r5 .r7 (.lsl 16), .op2 .pkhtb .r7 .r7 .r5 (.asr 16), .op2 .uadd16 .r8 .ip .r6 .id,
  .op2 .uadd16 .r9 .lr .r7 .id, .op2 .uadd16 .sl .r8 .r9 .id, .op2 .usub16 .fp .r8 .r9 .id, .str .sl .sp 1116 .off,
  .str .fp .sp 1244 .off, .op2 .uadd16 .r8 .ip .ip .id, .op2 .uadd16 .r8 .r8 .r8 .id, .op2 .uadd16 .r8 .r8 .r6 .id,
  .op2 .uadd16 .r8 .r8 .r8 .id, .op2 .uadd16 .r9 .lr .lr .id, .op2 .uadd16 .r9 .r9 .r9 .id, .op2 .uadd16 .r9 .r9 .r7 .id,
  .op2 .uadd16 .sl .r8 .r9 .id, .op2 .usub16 .fp .r8 .r9 .id, .str .sl .sp 1372 .off, .str .fp .sp 1500 .off,
  .op2 .uadd16 .r8 .r7 .r7 .id, .op2 .uadd16 .r8 .r8 .r6 .id, .op2 .uadd16 .r8 .r8 .r8 .id, .op2 .uadd16 .r8 .r8 .lr .id,
  .op2 .uadd16 .r8 .r8 .r8 .id, .op2 .uadd16 .r8 .r8 .ip .id, .str .r8 .sp 988 .off, .str .ip .sp 1628 .off, .str .r7 .r1 92 .off,
  .ldr .r4 .r1 384 .off, .ldr .r6 .r1 392 .off, .ldr .r5 .r1 388 .off, .ldr .r7 .r1 396 .off, .op2 .pkhbt .ip .r4 .r6 (.lsl 16),
  .op2 .pkhtb .r6 .r6 .r4 (.asr 16), .op2 .pkhbt .lr .r5 .r7 (.lsl 16), .op2 .pkhtb .r7 .r7 .r5 (.asr 16), .op2 .uadd16 .r8 .ip .r6 .id,
  .op2 .uadd16 .r9 .lr .r7 .id, .op2 .uadd16 .sl .r8 .r9 .id, .op2 .usub16 .fp .r8 .r9 .id, .str .sl .sp 1120 .off,
  .str .fp .sp 1248 .off]

/-- tc.s:1927-2046 -/
def toom_cook_4way_striding_asm_17 : List Ins := [
  .op2 .uadd16 .r8 .ip .ip .id, .op2 .uadd16 .r8 .r8 .r8 .id, .op2 .uadd16 .r8 .r8 .r6 .id, .op2 .uadd16 .r8 .r8 .r8 .id,
  .op2 .uadd16 .r9 .lr .lr .id, .op2 .uadd16 .r9 .r9 .r9 .id, .op2 .uadd16 .r9 .r9 .r7 .id, .op2 .uadd16 .sl .r8 .r9 .id,
  .op2 .usub16 .fp .r8 .r9 .id, .str .sl .sp 1376 .off, .str .fp .sp 1504 .off, .op2 .uadd16 .r8 .r7 .r7 .id,
  .op2 .uadd16 .r8 .r8 .r6 .id, .op2 .uadd16 .r8 .r8 .r8 .id, .op2 .uadd16 .r8 .r8 .lr .id, .op2 .uadd16 .r8 .r8 .r8 .id,
  .op2 .uadd16 .r8 .r8 .ip .id, .str .r8 .sp 992 .off, .str .ip .sp 1632 .off, .str .r7 .r1 96 .off, .ldr .r4 .r1 400 .off,
  .ldr .r6 .r1 408 .off, .ldr .r5 .r1 404 .off, .ldr .r7 .r1 412 .off, .op2 .pkhbt .ip .r4 .r6 (.lsl 16),
  .op2 .pkhtb .r6 .r6 .r4 (.asr 16), .op2 .pkhbt .lr .r5 .r7 (.lsl 16), .op2 .pkhtb .r7 .r7 .r5 (.asr 16), .op2 .uadd16 .r8 .ip .r6 .id,
  .op2 .uadd16 .r9 .lr .r7 .id, .op2 .uadd16 .sl .r8 .r9 .id, .op2 .usub16 .fp .r8 .r9 .id, .str .sl .sp 1124 .off,
  .str .fp .sp 1252 .off, .op2 .uadd16 .r8 .ip .ip .id, .op2 .uadd16 .r8 .r8 .r8 .id, .op2 .uadd16 .r8 .r8 .r6 .id,
  .op2 .uadd16 .r8 .r8 .r8 .id, .op2 .uadd16 .r9 .lr .lr .id, .op2 .uadd16 .r9 .r9 .r9 .id, .op2 .uadd16 .r9 .r9 .r7 .id,
  .op2 .uadd16 .sl .r8 .r9 .id, .op2 .usub16 .fp .r8 .r9 .id, .str .sl .sp 1380 .off, .str .fp .sp 1508 .off,
  .op2 .uadd16 .r8 .r7 .r7 .id, .op2 .uadd16 .r8 .r8 .r6 .id, .op2 .uadd16 .r8 .r8 .r8 .id, .op2 .uadd16 .r8 .r8 .lr .id,
  .op2 .uadd16 .r8 .r8 .r8 .id, .op2 .uadd16 .r8 .r8 .ip .id, .str .r8 .sp 996 .off, .str .ip .sp 1636 .off, .str .r7 .r1 100 .off,
  .ldr .r4 .r1 416 .off, .ldr .r6 .r1 424 .off, .ldr .r5 .r1 420 .off, .ldr .r7 .r1 428 .off, .op2 .pkhbt .ip .r4 .r6 (.lsl 16),
  .op2 .pkhtb .r6 .r6 .r4 (.asr 16), .op2 .pkhbt .lr .r5 .r7 (.lsl 16), .op2 .pkhtb .r7 .r7 .r5 (.asr 16), .op2 .uadd16 .r8 .ip .r6 .id,
  .op2 .uadd16 .r9 .lr .r7 .id, .op2 .uadd16 .sl .r8 .r9 .id, .op2 .usub16 .fp .r8 .r9 .id, .str .sl .sp 1128 .off,
  .str .fp .sp 1256 .off, .op2 .uadd16 .r8 .ip .ip .id, .op2 .uadd16 .r8 .r8 .r8 .id, .op2 .uadd16 .r8 .r8 .r6 .id,
  .op2 .uadd16 .r8 .r8 .r8 .id, .op2 .uadd16 .r9 .lr .lr .id, .op2 .uadd16 .r9 .r9 .r9 .id, .op2 .uadd16 .r9 .r9 .r7 .id,
  .op2 .uadd16 .sl .r8 .r9 .id, .op2 .usub16 .fp .r8 .r9 .id, .str .sl .sp 1384 .off, .str .fp .sp 1512 .off,
  .op2 .uadd16 .r8 .r7 .r7 .id, .op2 .uadd16 .r8 .r8 .r6 .id, .op2 .uadd16 .r8 .r8 .r8 .id, .op2 .uadd16 .r8 .r8 .lr .id,
  .op2 .uadd16 .r8 .r8 .r8 .id, .op2 .uadd16 .r8 .r8 .ip .id, .str .r8 .sp 1000 .off, .str .ip .sp 1640 .off, .str .r7 .r1 104 .off,
  .ldr .r4 .r1 432 .off, .ldr .r6 .r1 440 .off, .ldr .r5 .r1 436 .off, .ldr .r7 .r1 444 .off, .op2 .pkhbt .ip .r4 .r6 (.lsl 16),
  .op2 .pkhtb .r6 .r6 .r4 (.asr 16), .op2 .pkhbt .lr .r5 .r7 (.lsl 16), .op2 .pkhtb .r7 .r7 .r5 (.asr 16), .op2 .uadd16 .r8 .ip .r6 .id,
  .op2 .uadd16 .r9 .lr .r7 .id, .op2 .uadd16 .sl .r8 .r9 .id, .op2 .usub16 .fp .r8 .r9 .id, .str .sl .sp 1132 .off,
  .str .fp .sp 1260 .off, .op2 .uadd16 .r8 .ip .ip .id, .op2 .uadd16 .r8 .r8 .r8 .id, .op2 .uadd16 .r8 .r8 .r6 .id,
  .op2 .uadd16 .r8 .r8 .r8 .id, .op2 .uadd16 .r9 .lr .lr .id, .op2 .uadd16 .r9 .r9 .r9 .id, .op2 .uadd16 .r9 .r9 .r7 .id,
  .op2 .uadd16 .sl .r8 .r9 .id, .op2 .usub16 .fp .r8 .r9 .id, .str .sl .sp 1388 .off, .str .fp .sp 1516 .off,
  .op2 .uadd16 .r8 .r7 .r7 .id, .op2 .uadd16 .r8 .r8 .r6 .id, .op2 .uadd16 .r8 .r8 .r8 .id, .op2 .uadd16 .r8 .r8 .lr .id,
  .op2 .uadd16 .r8 .r8 .r8 .id, .op2 .uadd16 .r8 .r8 .ip .id, .str .r8 .sp 1004 .off]

/-- tc.s:2047-2166 -/
def toom_cook_4way_striding_asm_18 : List Ins := [
  .str .ip .sp 1644 .off, .str .r7 .r1 108 .off, .ldr .r4 .r1 448 .off, .ldr .r6 .r1 456 .off, .ldr .r5 .r1 452 .off,
  .ldr .r7 .r1 460 .off, .op2 .pkhbt .ip .r4 .r6 (.lsl 16), .op2 .pkhtb .r6 .r6 .r4 (.asr 16), .op2 .pkhbt .lr .r5 .r7 (.lsl 16),
  .op2 .pkhtb .r7 .r7 .r5 (.asr 16), .op2 .uadd16 .r8 .ip .r6 .id, .op2 .uadd16 .r9 .lr .r7 .id, .op2 .uadd16 .sl .r8 .r9 .id,
  .op2 .usub16 .fp .r8 .r9 .id, .str .sl .sp 1136 .off, .str .fp .sp 1264 .off, .op2 .uadd16 .r8 .ip .ip .id,
  .op2 .uadd16 .r8 .r8 .r8 .id, .op2 .uadd16 .r8 .r8 .r6 .id, .op2 .uadd16 .r8 .r8 .r8 .id, .op2 .uadd16 .r9 .lr .lr .id,
  .op2 .uadd16 .r9 .r9 .r9 .id, .op2 .uadd16 .r9 .r9 .r7 .id, .op2 .uadd16 .sl .r8 .r9 .id, .op2 .usub16 .fp .r8 .r9 .id,
  .str .sl .sp 1392 .off, .str .fp .sp 1520 .off, .op2 .uadd16 .r8 .r7 .r7 .id, .op2 .uadd16 .r8 .r8 .r6 .id,
  .op2 .uadd16 .r8 .r8 .r8 .id, .op2 .uadd16 .r8 .r8 .lr .id, .op2 .uadd16 .r8 .r8 .r8 .id, .op2 .uadd16 .r8 .r8 .ip .id,
  .str .r8 .sp 1008 .off, .str .ip .sp 1648 .off, .str .r7 .r1 112 .off, .ldr .r4 .r1 464 .off, .ldr .r6 .r1 472 .off,
  .ldr .r5 .r1 468 .off, .ldr .r7 .r1 476 .off, .op2 .pkhbt .ip .r4 .r6 (.lsl 16), .op2 .pkhtb .r6 .r6 .r4 (.asr 16),
  .op2 .pkhbt .lr .r5 .r7 (.lsl 16), .op2 .pkhtb .r7 .r7 .r5 (.asr 16), .op2 .uadd16 .r8 .ip .r6 .id, .op2 .uadd16 .r9 .lr .r7 .id,
  .op2 .uadd16 .sl .r8 .r9 .id, .op2 .usub16 .fp .r8 .r9 .id, .str .sl .sp 1140 .off, .str .fp .sp 1268 .off,
  .op2 .uadd16 .r8 .ip .ip .id, .op2 .uadd16 .r8 .r8 .r8 .id, .op2 .uadd16 .r8 .r8 .r6 .id, .op2 .uadd16 .r8 .r8 .r8 .id,
  .op2 .uadd16 .r9 .lr .lr .id, .op2 .uadd16 .r9 .r9 .r9 .id, .op2 .uadd16 .r9 .r9 .r7 .id, .op2 .uadd16 .sl .r8 .r9 .id,
  .op2 .usub16 .fp .r8 .r9 .id, .str .sl .sp 1396 .off, .str .fp .sp 1524 .off, .op2 .uadd16 .r8 .r7 .r7 .id,
  .op2 .uadd16 .r8 .r8 .r6 .id, .op2 .uadd16 .r8 .r8 .r8 .id, .op2 .uadd16 .r8 .r8 .lr .id, .op2 .uadd16 .r8 .r8 .r8 .id,
  .op2 .uadd16 .r8 .r8 .ip .id, .str .r8 .sp 1012 .off, .str .ip .sp 1652 .off, .str .r7 .r1 116 .off, .ldr .r4 .r1 480 .off,
  .ldr .r6 .r1 488 .off, .ldr .r5 .r1 484 .off, .ldr .r7 .r1 492 .off, .op2 .pkhbt .ip .r4 .r6 (.lsl 16),
  .op2 .pkhtb .r6 .r6 .r4 (.asr 16), .op2 .pkhbt .lr .r5 .r7 (.lsl 16), .op2 .pkhtb .r7 .r7 .r5 (.asr 16), .op2 .uadd16 .r8 .ip .r6 .id,
  .op2 .uadd16 .r9 .lr .r7 .id, .op2 .uadd16 .sl .r8 .r9 .id, .op2 .usub16 .fp .r8 .r9 .id, .str .sl .sp 1144 .off,
  .str .fp .sp 1272 .off, .op2 .uadd16 .r8 .ip .ip .id, .op2 .uadd16 .r8 .r8 .r8 .id, .op2 .uadd16 .r8 .r8 .r6 .id,
  .op2 .uadd16 .r8 .r8 .r8 .id, .op2 .uadd16 .r9 .lr .lr .id, .op2 .uadd16 .r9 .r9 .r9 .id, .op2 .uadd16 .r9 .r9 .r7 .id,
  .op2 .uadd16 .sl .r8 .r9 .id, .op2 .usub16 .fp .r8 .r9 .id, .str .sl .sp 1400 .off, .str .fp .sp 1528 .off,
  .op2 .uadd16 .r8 .r7 .r7 .id, .op2 .uadd16 .r8 .r8 .r6 .id, .op2 .uadd16 .r8 .r8 .r8 .id, .op2 .uadd16 .r8 .r8 .lr .id,
  .op2 .uadd16 .r8 .r8 .r8 .id, .op2 .uadd16 .r8 .r8 .ip .id, .str .r8 .sp 1016 .off, .str .ip .sp 1656 .off, .str .r7 .r1 120 .off,
  .ldr .r4 .r1 496 .off, .ldr .r6 .r1 504 .off, .ldr .r5 .r1 500 .off, .ldr .r7 .r1 508 .off, .op2 .pkhbt .ip .r4 .r6 (.lsl 16),
  .op2 .pkhtb .r6 .r6 .r4 (.asr 16), .op2 .pkhbt .lr .r5 .r7 (.lsl 16), .op2 .pkhtb .r7 .r7 .r5 (.asr 16), .op2 .uadd16 .r8 .ip .r6 .id,
  .op2 .uadd16 .r9 .lr .r7 .id, .op2 .uadd16 .sl .r8 .r9 .id, .op2 .usub16 .fp .r8 .r9 .id, .str .sl .sp 1148 .off,
  .str .fp .sp 1276 .off, .op2 .uadd16 .r8 .ip .ip .id, .op2 .uadd16 .r8 .r8 .r8 .id]

/-- tc.s:2167-2189 -/
def toom_cook_4way_striding_asm_19 : List Ins := [
  .op2 .uadd16 .r8 .r8 .r6 .id, .op2 .uadd16 .r8 .r8 .r8 .id, .op2 .uadd16 .r9 .lr .lr .id, .op2 .uadd16 .r9 .r9 .r9 .id,
  .op2 .uadd16 .r9 .r9 .r7 .id, .op2 .uadd16 .sl .r8 .r9 .id, .op2 .usub16 .fp .r8 .r9 .id, .str .sl .sp 1404 .off,
  .str .fp .sp 1532 .off, .op2 .uadd16 .r8 .r7 .r7 .id, .op2 .uadd16 .r8 .r8 .r6 .id, .op2 .uadd16 .r8 .r8 .r8 .id,
  .op2 .uadd16 .r8 .r8 .lr .id, .op2 .uadd16 .r8 .r8 .r8 .id, .op2 .uadd16 .r8 .r8 .ip .id, .str .r8 .sp 1020 .off,
  .str .ip .sp 1660 .off, .str .r7 .r1 124 .off, .op1 .id .r3 .sp, .push [.r0, .r1, .r2], .op1 .id .r0 .r3, .addi .r2 .r1 128,
  .addi .r3 .r1 256]

/-- tc.s:2191-2193 -/
def toom_cook_4way_striding_asm_20 : List Ins := [
  .op1 .id .r2 .r1, .addi .r1 .r0 896, .addi .r0 .r0 128]

/-- tc.s:2195-2197 -/
def toom_cook_4way_striding_asm_21 : List Ins := [
  .op1 .id .r2 .r1, .addi .r1 .r1 128, .addi .r0 .r0 128]

/-- tc.s:2199-2201 -/
def toom_cook_4way_striding_asm_22 : List Ins := [
  .op1 .id .r2 .r1, .addi .r1 .r1 128, .addi .r0 .r0 128]

/-- tc.s:2203-2205 -/
def toom_cook_4way_striding_asm_23 : List Ins := [
  .op1 .id .r2 .r1, .addi .r1 .r1 128, .addi .r0 .r0 128]

/-- tc.s:2207-2209 -/
def toom_cook_4way_striding_asm_24 : List Ins := [
  .op1 .id .r2 .r1, .addi .r1 .r1 128, .addi .r0 .r0 128]

/-- tc.s:2211-2213 -/
def toom_cook_4way_striding_asm_25 : List Ins := [
  .op1 .id .r2 .r1, .addi .r1 .r1 128, .addi .r0 .r0 128]

/-- tc.s:2215-2334 -/
def toom_cook_4way_striding_asm_26 : List Ins := [
  .pop [.r0, .r1, .r2], .op2 .eor .r9 .r9 .r9 .id, .op2 .eor .r8 .r8 .r8 .id, .ldr .r4 .r1 128 .off, .ldr .r5 .r1 0 .off,
  .ldr .r6 .sp 896 .off, .ldr .r7 .sp 1024 .off, .ldr .r8 .sp 1152 .off, .ldr .r9 .sp 1280 .off, .ldr .sl .sp 1408 .off,
  .op2 .uadd16 .r5 .r5 .r8 .id, .op2 .usub16 .r9 .r9 .r8 .id, .op2 .usub16 .r7 .r7 .r6 .id, .op2 .usub16 .r8 .r8 .r4 .id,
  .op1 (.lsr 16) .r0 .sl, .op1 (.lsl 6) .r3 .sl, .op2 .pkhbt .r3 .r3 .r0 (.lsl 22), .op2 .usub16 .r8 .r8 .r3 .id, .op1 (.lsl 16) .r0 .r7,
  .op1 (.lsr 1) .r3 .r7, .op2 .pkhtb .r7 .r3 .r0 (.asr 17), .op2 .uadd16 .r6 .r6 .r7 .id, .op1 (.lsr 16) .r0 .r8, .op1 (.lsl 1) .r3 .r8,
  .op2 .pkhbt .r3 .r3 .r0 (.lsl 17), .op2 .uadd16 .r8 .r9 .r3 .id, .op1 (.lsr 16) .r0 .r6, .op1 (.lsl 6) .r3 .r6,
  .op2 .pkhbt .r3 .r3 .r0 (.lsl 22), .op2 .uadd16 .r3 .r6 .r3 .id, .op2 .usub16 .r5 .r5 .r3 .id, .op2 .usub16 .r6 .r6 .sl .id,
  .op2 .usub16 .r6 .r6 .r4 .id, .movi .r3 45, .op2 .smulbb .r0 .r6 .r3 .id, .op2 .smultb .r3 .r6 .r3 .id,
  .op2 .pkhbt .r3 .r0 .r3 (.lsl 16), .op2 .uadd16 .r5 .r5 .r3 .id, .op1 (.lsr 16) .r0 .r6, .op1 (.lsl 3) .r3 .r6,
  .op2 .pkhbt .r3 .r3 .r0 (.lsl 19), .op2 .usub16 .r8 .r8 .r3 .id, .movi .r3 43691, .op2 .smulbb .r0 .r8 .r3 .id,
  .op2 .smultb .r3 .r8 .r3 .id, .op2 .pkhbt .r3 .r0 .r3 (.lsl 16), .op1 (.lsl 16) .r0 .r3, .op1 (.lsr 3) .r3 .r3,
  .op2 .pkhtb .r8 .r3 .r0 (.asr 19), .op2 .uadd16 .r9 .r5 .r9 .id, .op1 (.lsr 16) .r0 .r7, .op1 (.lsl 4) .r3 .r7,
  .op2 .pkhbt .r3 .r3 .r0 (.lsl 20), .op2 .uadd16 .r5 .r5 .r3 .id, .movi .r3 36409, .op2 .smulbb .r0 .r5 .r3 .id,
  .op2 .smultb .r3 .r5 .r3 .id, .op2 .pkhbt .r3 .r0 .r3 (.lsl 16), .op1 (.lsl 16) .r0 .r3, .op1 (.lsr 1) .r3 .r3,
  .op2 .pkhtb .r5 .r3 .r0 (.asr 17), .op2 .usub16 .r6 .r6 .r8 .id, .op2 .uadd16 .r7 .r7 .r5 .id, .movi .r3 0,
  .op2 .usub16 .r7 .r3 .r7 .id, .movi .r3 30, .op2 .smulbb .r0 .r5 .r3 .id, .op2 .smultb .r3 .r5 .r3 .id,
  .op2 .pkhbt .r3 .r0 .r3 (.lsl 16), .op2 .usub16 .r9 .r3 .r9 .id, .movi .r3 61167, .op2 .smulbb .r0 .r9 .r3 .id,
  .op2 .smultb .r3 .r9 .r3 .id, .op2 .pkhbt .r3 .r0 .r3 (.lsl 16), .op1 (.lsl 16) .r0 .r3, .op1 (.lsr 2) .r3 .r3,
  .op2 .pkhtb .r9 .r3 .r0 (.asr 18), .op2 .usub16 .r5 .r5 .r9 .id, .op2 .pkhbt .r0 .sl .r9 (.lsl 16), .op2 .pkhbt .r3 .r8 .r7 (.lsl 16),
  .op2 .uadd16 .r0 .r0 .lr .id, .op2 .uadd16 .r3 .r3 .ip .id, .op2 .pkhtb .lr .r5 .r6 (.asr 16), .op2 .pkhtb .ip .ip .r4 (.asr 16),
  .op2 .pkhbt .r5 .r6 .r5 (.lsl 16), .op2 .pkhbt .r4 .r4 .ip .id, .op2 .pkhtb .r9 .r9 .sl (.asr 16), .op2 .pkhtb .sl .r7 .r8 (.asr 16),
  .op2 .uadd16 .r9 .r9 .r5 .id, .op2 .uadd16 .sl .sl .r4 .id, .ldr .r4 .r2 0 .off, .ldr .r5 .r2 4 .off, .ldr .r6 .r2 8 .off,
  .ldr .fp .r2 12 .off, .op2 .uadd16 .r4 .r4 .r0 .id, .str .r4 .r2 0 .off, .op2 .uadd16 .r5 .r5 .r3 .id, .str .r5 .r2 4 .off,
  .op2 .uadd16 .r6 .r6 .r9 .id, .str .r6 .r2 8 .off, .op2 .uadd16 .fp .fp .sl .id, .str .fp .r2 12 .off, .ldr .r4 .r1 132 .off,
  .ldr .r5 .r1 4 .off, .ldr .r6 .sp 900 .off, .ldr .r7 .sp 1028 .off, .ldr .r8 .sp 1156 .off, .ldr .r9 .sp 1284 .off,
  .ldr .sl .sp 1412 .off, .op2 .uadd16 .r5 .r5 .r8 .id, .op2 .usub16 .r9 .r9 .r8 .id, .op2 .usub16 .r7 .r7 .r6 .id,
  .op2 .usub16 .r8 .r8 .r4 .id, .op1 (.lsr 16) .r0 .sl, .op1 (.lsl 6) .r3 .sl, .op2 .pkhbt .r3 .r3 .r0 (.lsl 22),
  .op2 .usub16 .r8 .r8 .r3 .id, .op1 (.lsl 16) .r0 .r7, .op1 (.lsr 1) .r3 .r7, .op2 .pkhtb .r7 .r3 .r0 (.asr 17)]

/-- tc.s:2335-2454 -/
def toom_cook_4way_striding_asm_27 : List Ins := [
  .op2 .uadd16 .r6 .r6 .r7 .id, .op1 (.lsr 16) .r0 .r8, .op1 (.lsl 1) .r3 .r8, .op2 .pkhbt .r3 .r3 .r0 (.lsl 17),
  .op2 .uadd16 .r8 .r9 .r3 .id, .op1 (.lsr 16) .r0 .r6, .op1 (.lsl 6) .r3 .r6, .op2 .pkhbt .r3 .r3 .r0 (.lsl 22),
  .op2 .uadd16 .r3 .r6 .r3 .id, .op2 .usub16 .r5 .r5 .r3 .id, .op2 .usub16 .r6 .r6 .sl .id, .op2 .usub16 .r6 .r6 .r4 .id, .movi .r3 45,
  .op2 .smulbb .r0 .r6 .r3 .id, .op2 .smultb .r3 .r6 .r3 .id, .op2 .pkhbt .r3 .r0 .r3 (.lsl 16), .op2 .uadd16 .r5 .r5 .r3 .id,
  .op1 (.lsr 16) .r0 .r6, .op1 (.lsl 3) .r3 .r6, .op2 .pkhbt .r3 .r3 .r0 (.lsl 19), .op2 .usub16 .r8 .r8 .r3 .id, .movi .r3 43691,
  .op2 .smulbb .r0 .r8 .r3 .id, .op2 .smultb .r3 .r8 .r3 .id, .op2 .pkhbt .r3 .r0 .r3 (.lsl 16), .op1 (.lsl 16) .r0 .r3,
  .op1 (.lsr 3) .r3 .r3, .op2 .pkhtb .r8 .r3 .r0 (.asr 19), .op2 .uadd16 .r9 .r5 .r9 .id, .op1 (.lsr 16) .r0 .r7, .op1 (.lsl 4) .r3 .r7,
  .op2 .pkhbt .r3 .r3 .r0 (.lsl 20), .op2 .uadd16 .r5 .r5 .r3 .id, .movi .r3 36409, .op2 .smulbb .r0 .r5 .r3 .id,
  .op2 .smultb .r3 .r5 .r3 .id, .op2 .pkhbt .r3 .r0 .r3 (.lsl 16), .op1 (.lsl 16) .r0 .r3, .op1 (.lsr 1) .r3 .r3,
  .op2 .pkhtb .r5 .r3 .r0 (.asr 17), .op2 .usub16 .r6 .r6 .r8 .id, .op2 .uadd16 .r7 .r7 .r5 .id, .movi .r3 0,
  .op2 .usub16 .r7 .r3 .r7 .id, .movi .r3 30, .op2 .smulbb .r0 .r5 .r3 .id, .op2 .smultb .r3 .r5 .r3 .id,
  .op2 .pkhbt .r3 .r0 .r3 (.lsl 16), .op2 .usub16 .r9 .r3 .r9 .id, .movi .r3 61167, .op2 .smulbb .r0 .r9 .r3 .id,
  .op2 .smultb .r3 .r9 .r3 .id, .op2 .pkhbt .r3 .r0 .r3 (.lsl 16), .op1 (.lsl 16) .r0 .r3, .op1 (.lsr 2) .r3 .r3,
  .op2 .pkhtb .r9 .r3 .r0 (.asr 18), .op2 .usub16 .r5 .r5 .r9 .id, .op2 .pkhbt .r0 .sl .r9 (.lsl 16), .op2 .pkhbt .r3 .r8 .r7 (.lsl 16),
  .op2 .uadd16 .r0 .r0 .lr .id, .op2 .uadd16 .r3 .r3 .ip .id, .op2 .pkhtb .lr .r5 .r6 (.asr 16), .op2 .pkhtb .ip .ip .r4 (.asr 16),
  .op2 .pkhbt .r5 .r6 .r5 (.lsl 16), .op2 .pkhbt .r4 .r4 .ip .id, .op2 .pkhtb .r9 .r9 .sl (.asr 16), .op2 .pkhtb .sl .r7 .r8 (.asr 16),
  .op2 .uadd16 .r9 .r9 .r5 .id, .op2 .uadd16 .sl .sl .r4 .id, .ldr .r4 .r2 16 .off, .ldr .r5 .r2 20 .off, .ldr .r6 .r2 24 .off,
  .ldr .fp .r2 28 .off, .op2 .uadd16 .r4 .r4 .r0 .id, .str .r4 .r2 16 .off, .op2 .uadd16 .r5 .r5 .r3 .id, .str .r5 .r2 20 .off,
  .op2 .uadd16 .r6 .r6 .r9 .id, .str .r6 .r2 24 .off, .op2 .uadd16 .fp .fp .sl .id, .str .fp .r2 28 .off, .ldr .r4 .r1 136 .off,
  .ldr .r5 .r1 8 .off, .ldr .r6 .sp 904 .off, .ldr .r7 .sp 1032 .off, .ldr .r8 .sp 1160 .off, .ldr .r9 .sp 1288 .off,
  .ldr .sl .sp 1416 .off, .op2 .uadd16 .r5 .r5 .r8 .id, .op2 .usub16 .r9 .r9 .r8 .id, .op2 .usub16 .r7 .r7 .r6 .id,
  .op2 .usub16 .r8 .r8 .r4 .id, .op1 (.lsr 16) .r0 .sl, .op1 (.lsl 6) .r3 .sl, .op2 .pkhbt .r3 .r3 .r0 (.lsl 22),
  .op2 .usub16 .r8 .r8 .r3 .id, .op1 (.lsl 16) .r0 .r7, .op1 (.lsr 1) .r3 .r7, .op2 .pkhtb .r7 .r3 .r0 (.asr 17),
  .op2 .uadd16 .r6 .r6 .r7 .id, .op1 (.lsr 16) .r0 .r8, .op1 (.lsl 1) .r3 .r8, .op2 .pkhbt .r3 .r3 .r0 (.lsl 17),
  .op2 .uadd16 .r8 .r9 .r3 .id, .op1 (.lsr 16) .r0 .r6, .op1 (.lsl 6) .r3 .r6, .op2 .pkhbt .r3 .r3 .r0 (.lsl 22),
  .op2 .uadd16 .r3 .r6 .r3 .id, .op2 .usub16 .r5 .r5 .r3 .id, .op2 .usub16 .r6 .r6 .sl .id, .op2 .usub16 .r6 .r6 .r4 .id, .movi .r3 45,
  .op2 .smulbb .r0 .r6 .r3 .id, .op2 .smultb .r3 .r6 .r3 .id, .op2 .pkhbt .r3 .r0 .r3 (.lsl 16), .op2 .uadd16 .r5 .r5 .r3 .id,
  .op1 (.lsr 16) .r0 .r6, .op1 (.lsl 3) .r3 .r6, .op2 .pkhbt .r3 .r3 .r0 (.lsl 19), .op2 .usub16 .r8 .r8 .r3 .id]

/-- tc.s:2455-2574 -/
def toom_cook_4way_striding_asm_28 : List Ins := [
  .movi .r3 43691, .op2 .smulbb .r0 .r8 .r3 .id, .op2 .smultb .r3 .r8 .r3 .id, .op2 .pkhbt .r3 .r0 .r3 (.lsl 16), .op1 (.lsl 16) .r0 .r3,
  .op1 (.lsr 3) .r3 .r3, .op2 .pkhtb .r8 .r3 .r0 (.asr 19), .op2 .uadd16 .r9 .r5 .r9 .id, .op1 (.lsr 16) .r0 .r7, .op1 (.lsl 4) .r3 .r7,
  .op2 .pkhbt .r3 .r3 .r0 (.lsl 20), .op2 .uadd16 .r5 .r5 .r3 .id, .movi .r3 36409, .op2 .smulbb .r0 .r5 .r3 .id,
  .op2 .smultb .r3 .r5 .r3 .id, .op2 .pkhbt .r3 .r0 .r3 (.lsl 16), .op1 (.lsl 16) .r0 .r3, .op1 (.lsr 1) .r3 .r3,
  .op2 .pkhtb .r5 .r3 .r0 (.asr 17), .op2 .usub16 .r6 .r6 .r8 .id, .op2 .uadd16 .r7 .r7 .r5 .id, .movi .r3 0,
  .op2 .usub16 .r7 .r3 .r7 .id, .movi .r3 30, .op2 .smulbb .r0 .r5 .r3 .id, .op2 .smultb .r3 .r5 .r3 .id,
  .op2 .pkhbt .r3 .r0 .r3 (.lsl 16), .op2 .usub16 .r9 .r3 .r9 .id, .movi .r3 61167, .op2 .smulbb .r0 .r9 .r3 .id,
  .op2 .smultb .r3 .r9 .r3 .id, .op2 .pkhbt .r3 .r0 .r3 (.lsl 16), .op1 (.lsl 16) .r0 .r3, .op1 (.lsr 2) .r3 .r3,
  .op2 .pkhtb .r9 .r3 .r0 (.asr 18), .op2 .usub16 .r5 .r5 .r9 .id, .op2 .pkhbt .r0 .sl .r9 (.lsl 16), .op2 .pkhbt .r3 .r8 .r7 (.lsl 16),
  .op2 .uadd16 .r0 .r0 .lr .id, .op2 .uadd16 .r3 .r3 .ip .id, .op2 .pkhtb .lr .r5 .r6 (.asr 16), .op2 .pkhtb .ip .ip .r4 (.asr 16),
  .op2 .pkhbt .r5 .r6 .r5 (.lsl 16), .op2 .pkhbt .r4 .r4 .ip .id, .op2 .pkhtb .r9 .r9 .sl (.asr 16), .op2 .pkhtb .sl .r7 .r8 (.asr 16),
  .op2 .uadd16 .r9 .r9 .r5 .id, .op2 .uadd16 .sl .sl .r4 .id, .ldr .r4 .r2 32 .off, .ldr .r5 .r2 36 .off, .ldr .r6 .r2 40 .off,
  .ldr .fp .r2 44 .off, .op2 .uadd16 .r4 .r4 .r0 .id, .str .r4 .r2 32 .off, .op2 .uadd16 .r5 .r5 .r3 .id, .str .r5 .r2 36 .off,
  .op2 .uadd16 .r6 .r6 .r9 .id, .str .r6 .r2 40 .off, .op2 .uadd16 .fp .fp .sl .id, .str .fp .r2 44 .off, .ldr .r4 .r1 140 .off,
  .ldr .r5 .r1 12 .off, .ldr .r6 .sp 908 .off, .ldr .r7 .sp 1036 .off, .ldr .r8 .sp 1164 .off, .ldr .r9 .sp 1292 .off,
  .ldr .sl .sp 1420 .off, .op2 .uadd16 .r5 .r5 .r8 .id, .op2 .usub16 .r9 .r9 .r8 .id, .op2 .usub16 .r7 .r7 .r6 .id,
  .op2 .usub16 .r8 .r8 .r4 .id, .op1 (.lsr 16) .r0 .sl, .op1 (.lsl 6) .r3 .sl, .op2 .pkhbt .r3 .r3 .r0 (.lsl 22),
  .op2 .usub16 .r8 .r8 .r3 .id, .op1 (.lsl 16) .r0 .r7, .op1 (.lsr 1) .r3 .r7, .op2 .pkhtb .r7 .r3 .r0 (.asr 17),
  .op2 .uadd16 .r6 .r6 .r7 .id, .op1 (.lsr 16) .r0 .r8, .op1 (.lsl 1) .r3 .r8, .op2 .pkhbt .r3 .r3 .r0 (.lsl 17),
  .op2 .uadd16 .r8 .r9 .r3 .id, .op1 (.lsr 16) .r0 .r6, .op1 (.lsl 6) .r3 .r6, .op2 .pkhbt .r3 .r3 .r0 (.lsl 22),
  .op2 .uadd16 .r3 .r6 .r3 .id, .op2 .usub16 .r5 .r5 .r3 .id, .op2 .usub16 .r6 .r6 .sl .id, .op2 .usub16 .r6 .r6 .r4 .id, .movi .r3 45,
  .op2 .smulbb .r0 .r6 .r3 .id, .op2 .smultb .r3 .r6 .r3 .id, .op2 .pkhbt .r3 .r0 .r3 (.lsl 16), .op2 .uadd16 .r5 .r5 .r3 .id,
  .op1 (.lsr 16) .r0 .r6, .op1 (.lsl 3) .r3 .r6, .op2 .pkhbt .r3 .r3 .r0 (.lsl 19), .op2 .usub16 .r8 .r8 .r3 .id, .movi .r3 43691,
  .op2 .smulbb .r0 .r8 .r3 .id, .op2 .smultb .r3 .r8 .r3 .id, .op2 .pkhbt .r3 .r0 .r3 (.lsl 16), .op1 (.lsl 16) .r0 .r3,
  .op1 (.lsr 3) .r3 .r3, .op2 .pkhtb .r8 .r3 .r0 (.asr 19), .op2 .uadd16 .r9 .r5 .r9 .id, .op1 (.lsr 16) .r0 .r7, .op1 (.lsl 4) .r3 .r7,
  .op2 .pkhbt .r3 .r3 .r0 (.lsl 20), .op2 .uadd16 .r5 .r5 .r3 .id, .movi .r3 36409, .op2 .smulbb .r0 .r5 .r3 .id,
  .op2 .smultb .r3 .r5 .r3 .id, .op2 .pkhbt .r3 .r0 .r3 (.lsl 16), .op1 (.lsl 16) .r0 .r3, .op1 (.lsr 1) .r3 .r3,
  .op2 .pkhtb .r5 .r3 .r0 (.asr 17), .op2 .usub16 .r6 .r6 .r8 .id, .op2 .uadd16 .r7 .r7 .r5 .id]

/-- tc.s:2575-2694 -/
def toom_cook_4way_striding_asm_29 : List Ins := [
  .movi .r3 0, .op2 .usub16 .r7 .r3 .r7 .id, .movi .r3 30, .op2 .smulbb .r0 .r5 .r3 .id, .op2 .smultb .r3 .r5 .r3 .id,
  .op2 .pkhbt .r3 .r0 .r3 (.lsl 16), .op2 .usub16 .r9 .r3 .r9 .id, .movi .r3 61167, .op2 .smulbb .r0 .r9 .r3 .id,
  .op2 .smultb .r3 .r9 .r3 .id, .op2 .pkhbt .r3 .r0 .r3 (.lsl 16), .op1 (.lsl 16) .r0 .r3, .op1 (.lsr 2) .r3 .r3,
  .op2 .pkhtb .r9 .r3 .r0 (.asr 18), .op2 .usub16 .r5 .r5 .r9 .id, .op2 .pkhbt .r0 .sl .r9 (.lsl 16), .op2 .pkhbt .r3 .r8 .r7 (.lsl 16),
  .op2 .uadd16 .r0 .r0 .lr .id, .op2 .uadd16 .r3 .r3 .ip .id, .op2 .pkhtb .lr .r5 .r6 (.asr 16), .op2 .pkhtb .ip .ip .r4 (.asr 16),
  .op2 .pkhbt .r5 .r6 .r5 (.lsl 16), .op2 .pkhbt .r4 .r4 .ip .id, .op2 .pkhtb .r9 .r9 .sl (.asr 16), .op2 .pkhtb .sl .r7 .r8 (.asr 16),
  .op2 .uadd16 .r9 .r9 .r5 .id, .op2 .uadd16 .sl .sl .r4 .id, .ldr .r4 .r2 48 .off, .ldr .r5 .r2 52 .off, .ldr .r6 .r2 56 .off,
  .ldr .fp .r2 60 .off, .op2 .uadd16 .r4 .r4 .r0 .id, .str .r4 .r2 48 .off, .op2 .uadd16 .r5 .r5 .r3 .id, .str .r5 .r2 52 .off,
  .op2 .uadd16 .r6 .r6 .r9 .id, .str .r6 .r2 56 .off, .op2 .uadd16 .fp .fp .sl .id, .str .fp .r2 60 .off, .ldr .r4 .r1 144 .off,
  .ldr .r5 .r1 16 .off, .ldr .r6 .sp 912 .off, .ldr .r7 .sp 1040 .off, .ldr .r8 .sp 1168 .off, .ldr .r9 .sp 1296 .off,
  .ldr .sl .sp 1424 .off, .op2 .uadd16 .r5 .r5 .r8 .id, .op2 .usub16 .r9 .r9 .r8 .id, .op2 .usub16 .r7 .r7 .r6 .id,
  .op2 .usub16 .r8 .r8 .r4 .id, .op1 (.lsr 16) .r0 .sl, .op1 (.lsl 6) .r3 .sl, .op2 .pkhbt .r3 .r3 .r0 (.lsl 22),
  .op2 .usub16 .r8 .r8 .r3 .id, .op1 (.lsl 16) .r0 .r7, .op1 (.lsr 1) .r3 .r7, .op2 .pkhtb .r7 .r3 .r0 (.asr 17),
  .op2 .uadd16 .r6 .r6 .r7 .id, .op1 (.lsr 16) .r0 .r8, .op1 (.lsl 1) .r3 .r8, .op2 .pkhbt .r3 .r3 .r0 (.lsl 17),
  .op2 .uadd16 .r8 .r9 .r3 .id, .op1 (.lsr 16) .r0 .r6, .op1 (.lsl 6) .r3 .r6, .op2 .pkhbt .r3 .r3 .r0 (.lsl 22),
  .op2 .uadd16 .r3 .r6 .r3 .id, .op2 .usub16 .r5 .r5 .r3 .id, .op2 .usub16 .r6 .r6 .sl .id, .op2 .usub16 .r6 .r6 .r4 .id, .movi .r3 45,
  .op2 .smulbb .r0 .r6 .r3 .id, .op2 .smultb .r3 .r6 .r3 .id, .op2 .pkhbt .r3 .r0 .r3 (.lsl 16), .op2 .uadd16 .r5 .r5 .r3 .id,
  .op1 (.lsr 16) .r0 .r6, .op1 (.lsl 3) .r3 .r6, .op2 .pkhbt .r3 .r3 .r0 (.lsl 19), .op2 .usub16 .r8 .r8 .r3 .id, .movi .r3 43691,
  .op2 .smulbb .r0 .r8 .r3 .id, .op2 .smultb .r3 .r8 .r3 .id, .op2 .pkhbt .r3 .r0 .r3 (.lsl 16), .op1 (.lsl 16) .r0 .r3,
  .op1 (.lsr 3) .r3 .r3, .op2 .pkhtb .r8 .r3 .r0 (.asr 19), .op2 .uadd16 .r9 .r5 .r9 .id, .op1 (.lsr 16) .r0 .r7, .op1 (.lsl 4) .r3 .r7,
  .op2 .pkhbt .r3 .r3 .r0 (.lsl 20), .op2 .uadd16 .r5 .r5 .r3 .id, .movi .r3 36409, .op2 .smulbb .r0 .r5 .r3 .id,
  .op2 .smultb .r3 .r5 .r3 .id, .op2 .pkhbt .r3 .r0 .r3 (.lsl 16), .op1 (.lsl 16) .r0 .r3, .op1 (.lsr 1) .r3 .r3,
  .op2 .pkhtb .r5 .r3 .r0 (.asr 17), .op2 .usub16 .r6 .r6 .r8 .id, .op2 .uadd16 .r7 .r7 .r5 .id, .movi .r3 0,
  .op2 .usub16 .r7 .r3 .r7 .id, .movi .r3 30, .op2 .smulbb .r0 .r5 .r3 .id, .op2 .smultb .r3 .r5 .r3 .id,
  .op2 .pkhbt .r3 .r0 .r3 (.lsl 16), .op2 .usub16 .r9 .r3 .r9 .id, .movi .r3 61167, .op2 .smulbb .r0 .r9 .r3 .id,
  .op2 .smultb .r3 .r9 .r3 .id, .op2 .pkhbt .r3 .r0 .r3 (.lsl 16), .op1 (.lsl 16) .r0 .r3, .op1 (.lsr 2) .r3 .r3,
  .op2 .pkhtb .r9 .r3 .r0 (.asr 18), .op2 .usub16 .r5 .r5 .r9 .id, .op2 .pkhbt .r0 .sl .r9 (.lsl 16), .op2 .pkhbt .r3 .r8 .r7 (.lsl 16),
  .op2 .uadd16 .r0 .r0 .lr .id, .op2 .uadd16 .r3 .r3 .ip .id, .op2 .pkhtb .lr .r5 .r6 (.asr 16), .op2 .pkhtb .ip .ip .r4 (.asr 16)]

/-- tc.s:2695-2814 -/
def toom_cook_4way_striding_asm_30 : List Ins := [
  .op2 .pkhbt .r5 .r6 .r5 (.lsl 16), .op2 .pkhbt .r4 .r4 .ip .id, .op2 .pkhtb .r9 .r9 .sl (.asr 16), .op2 .pkhtb .sl .r7 .r8 (.asr 16),
  .op2 .uadd16 .r9 .r9 .r5 .id, .op2 .uadd16 .sl .sl .r4 .id, .ldr .r4 .r2 64 .off, .ldr .r5 .r2 68 .off, .ldr .r6 .r2 72 .off,
  .ldr .fp .r2 76 .off, .op2 .uadd16 .r4 .r4 .r0 .id, .str .r4 .r2 64 .off, .op2 .uadd16 .r5 .r5 .r3 .id, .str .r5 .r2 68 .off,
  .op2 .uadd16 .r6 .r6 .r9 .id, .str .r6 .r2 72 .off, .op2 .uadd16 .fp .fp .sl .id, .str .fp .r2 76 .off, .ldr .r4 .r1 148 .off,
  .ldr .r5 .r1 20 .off, .ldr .r6 .sp 916 .off, .ldr .r7 .sp 1044 .off, .ldr .r8 .sp 1172 .off, .ldr .r9 .sp 1300 .off,
  .ldr .sl .sp 1428 .off, .op2 .uadd16 .r5 .r5 .r8 .id, .op2 .usub16 .r9 .r9 .r8 .id, .op2 .usub16 .r7 .r7 .r6 .id,
  .op2 .usub16 .r8 .r8 .r4 .id, .op1 (.lsr 16) .r0 .sl, .op1 (.lsl 6) .r3 .sl, .op2 .pkhbt .r3 .r3 .r0 (.lsl 22),
  .op2 .usub16 .r8 .r8 .r3 .id, .op1 (.lsl 16) .r0 .r7, .op1 (.lsr 1) .r3 .r7, .op2 .pkhtb .r7 .r3 .r0 (.asr 17),
  .op2 .uadd16 .r6 .r6 .r7 .id, .op1 (.lsr 16) .r0 .r8, .op1 (.lsl 1) .r3 .r8, .op2 .pkhbt .r3 .r3 .r0 (.lsl 17),
  .op2 .uadd16 .r8 .r9 .r3 .id, .op1 (.lsr 16) .r0 .r6, .op1 (.lsl 6) .r3 .r6, .op2 .pkhbt .r3 .r3 .r0 (.lsl 22),
  .op2 .uadd16 .r3 .r6 .r3 .id, .op2 .usub16 .r5 .r5 .r3 .id, .op2 .usub16 .r6 .r6 .sl .id, .op2 .usub16 .r6 .r6 .r4 .id, .movi .r3 45,
  .op2 .smulbb .r0 .r6 .r3 .id, .op2 .smultb .r3 .r6 .r3 .id, .op2 .pkhbt .r3 .r0 .r3 (.lsl 16), .op2 .uadd16 .r5 .r5 .r3 .id,
  .op1 (.lsr 16) .r0 .r6, .op1 (.lsl 3) .r3 .r6, .op2 .pkhbt .r3 .r3 .r0 (.lsl 19), .op2 .usub16 .r8 .r8 .r3 .id, .movi .r3 43691,
  .op2 .smulbb .r0 .r8 .r3 .id, .op2 .smultb .r3 .r8 .r3 .id, .op2 .pkhbt .r3 .r0 .r3 (.lsl 16), .op1 (.lsl 16) .r0 .r3,
  .op1 (.lsr 3) .r3 .r3, .op2 .pkhtb .r8 .r3 .r0 (.asr 19), .op2 .uadd16 .r9 .r5 .r9 .id, .op1 (.lsr 16) .r0 .r7, .op1 (.lsl 4) .r3 .r7,
  .op2 .pkhbt .r3 .r3 .r0 (.lsl 20), .op2 .uadd16 .r5 .r5 .r3 .id, .movi .r3 36409, .op2 .smulbb .r0 .r5 .r3 .id,
  .op2 .smultb .r3 .r5 .r3 .id, .op2 .pkhbt .r3 .r0 .r3 (.lsl 16), .op1 (.lsl 16) .r0 .r3, .op1 (.lsr 1) .r3 .r3,
  .op2 .pkhtb .r5 .r3 .r0 (.asr 17), .op2 .usub16 .r6 .r6 .r8 .id, .op2 .uadd16 .r7 .r7 .r5 .id, .movi .r3 0,
  .op2 .usub16 .r7 .r3 .r7 .id, .movi .r3 30, .op2 .smulbb .r0 .r5 .r3 .id, .op2 .smultb .r3 .r5 .r3 .id,
  .op2 .pkhbt .r3 .r0 .r3 (.lsl 16), .op2 .usub16 .r9 .r3 .r9 .id, .movi .r3 61167, .op2 .smulbb .r0 .r9 .r3 .id,
  .op2 .smultb .r3 .r9 .r3 .id, .op2 .pkhbt .r3 .r0 .r3 (.lsl 16), .op1 (.lsl 16) .r0 .r3, .op1 (.lsr 2) .r3 .r3,
  .op2 .pkhtb .r9 .r3 .r0 (.asr 18), .op2 .usub16 .r5 .r5 .r9 .id, .op2 .pkhbt .r0 .sl .r9 (.lsl 16), .op2 .pkhbt .r3 .r8 .r7 (.lsl 16),
  .op2 .uadd16 .r0 .r0 .lr .id, .op2 .uadd16 .r3 .r3 .ip .id, .op2 .pkhtb .lr .r5 .r6 (.asr 16), .op2 .pkhtb .ip .ip .r4 (.asr 16),
  .op2 .pkhbt .r5 .r6 .r5 (.lsl 16), .op2 .pkhbt .r4 .r4 .ip .id, .op2 .pkhtb .r9 .r9 .sl (.asr 16), .op2 .pkhtb .sl .r7 .r8 (.asr 16),
  .op2 .uadd16 .r9 .r9 .r5 .id, .op2 .uadd16 .sl .sl .r4 .id, .ldr .r4 .r2 80 .off, .ldr .r5 .r2 84 .off, .ldr .r6 .r2 88 .off,
  .ldr .fp .r2 92 .off, .op2 .uadd16 .r4 .r4 .r0 .id, .str .r4 .r2 80 .off, .op2 .uadd16 .r5 .r5 .r3 .id, .str .r5 .r2 84 .off,
  .op2 .uadd16 .r6 .r6 .r9 .id, .str .r6 .r2 88 .off, .op2 .uadd16 .fp .fp .sl .id, .str .fp .r2 92 .off, .ldr .r4 .r1 152 .off,
  .ldr .r5 .r1 24 .off, .ldr .r6 .sp 920 .off]

/-- tc.s:2815-2934 -/
def toom_cook_4way_striding_asm_31 : List Ins := [
  .ldr .r7 .sp 1048 .off, .ldr .r8 .sp 1176 .off, .ldr .r9 .sp 1304 .off, .ldr .sl .sp 1432 .off, .op2 .uadd16 .r5 .r5 .r8 .id,
  .op2 .usub16 .r9 .r9 .r8 .id, .op2 .usub16 .r7 .r7 .r6 .id, .op2 .usub16 .r8 .r8 .r4 .id, .op1 (.lsr 16) .r0 .sl,
  .op1 (.lsl 6) .r3 .sl, .op2 .pkhbt .r3 .r3 .r0 (.lsl 22), .op2 .usub16 .r8 .r8 .r3 .id, .op1 (.lsl 16) .r0 .r7, .op1 (.lsr 1) .r3 .r7,
  .op2 .pkhtb .r7 .r3 .r0 (.asr 17), .op2 .uadd16 .r6 .r6 .r7 .id, .op1 (.lsr 16) .r0 .r8, .op1 (.lsl 1) .r3 .r8,
  .op2 .pkhbt .r3 .r3 .r0 (.lsl 17), .op2 .uadd16 .r8 .r9 .r3 .id, .op1 (.lsr 16) .r0 .r6, .op1 (.lsl 6) .r3 .r6,
  .op2 .pkhbt .r3 .r3 .r0 (.lsl 22), .op2 .uadd16 .r3 .r6 .r3 .id, .op2 .usub16 .r5 .r5 .r3 .id, .op2 .usub16 .r6 .r6 .sl .id,
  .op2 .usub16 .r6 .r6 .r4 .id, .movi .r3 45, .op2 .smulbb .r0 .r6 .r3 .id, .op2 .smultb .r3 .r6 .r3 .id,
  .op2 .pkhbt .r3 .r0 .r3 (.lsl 16), .op2 .uadd16 .r5 .r5 .r3 .id, .op1 (.lsr 16) .r0 .r6, .op1 (.lsl 3) .r3 .r6,
  .op2 .pkhbt .r3 .r3 .r0 (.lsl 19), .op2 .usub16 .r8 .r8 .r3 .id, .movi .r3 43691, .op2 .smulbb .r0 .r8 .r3 .id,
  .op2 .smultb .r3 .r8 .r3 .id, .op2 .pkhbt .r3 .r0 .r3 (.lsl 16), .op1 (.lsl 16) .r0 .r3, .op1 (.lsr 3) .r3 .r3,
  .op2 .pkhtb .r8 .r3 .r0 (.asr 19), .op2 .uadd16 .r9 .r5 .r9 .id, .op1 (.lsr 16) .r0 .r7, .op1 (.lsl 4) .r3 .r7,
  .op2 .pkhbt .r3 .r3 .r0 (.lsl 20), .op2 .uadd16 .r5 .r5 .r3 .id, .movi .r3 36409, .op2 .smulbb .r0 .r5 .r3 .id,
  .op2 .smultb .r3 .r5 .r3 .id, .op2 .pkhbt .r3 .r0 .r3 (.lsl 16), .op1 (.lsl 16) .r0 .r3, .op1 (.lsr 1) .r3 .r3,
  .op2 .pkhtb .r5 .r3 .r0 (.asr 17), .op2 .usub16 .r6 .r6 .r8 .id, .op2 .uadd16 .r7 .r7 .r5 .id, .movi .r3 0,
  .op2 .usub16 .r7 .r3 .r7 .id, .movi .r3 30, .op2 .smulbb .r0 .r5 .r3 .id, .op2 .smultb .r3 .r5 .r3 .id,
  .op2 .pkhbt .r3 .r0 .r3 (.lsl 16), .op2 .usub16 .r9 .r3 .r9 .id, .movi .r3 61167, .op2 .smulbb .r0 .r9 .r3 .id,
  .op2 .smultb .r3 .r9 .r3 .id, .op2 .pkhbt .r3 .r0 .r3 (.lsl 16), .op1 (.lsl 16) .r0 .r3, .op1 (.lsr 2) .r3 .r3,
  .op2 .pkhtb .r9 .r3 .r0 (.asr 18), .op2 .usub16 .r5 .r5 .r9 .id, .op2 .pkhbt .r0 .sl .r9 (.lsl 16), .op2 .pkhbt .r3 .r8 .r7 (.lsl 16),
  .op2 .uadd16 .r0 .r0 .lr .id, .op2 .uadd16 .r3 .r3 .ip .id, .op2 .pkhtb .lr .r5 .r6 (.asr 16), .op2 .pkhtb .ip .ip .r4 (.asr 16),
  .op2 .pkhbt .r5 .r6 .r5 (.lsl 16), .op2 .pkhbt .r4 .r4 .ip .id, .op2 .pkhtb .r9 .r9 .sl (.asr 16), .op2 .pkhtb .sl .r7 .r8 (.asr 16),
  .op2 .uadd16 .r9 .r9 .r5 .id, .op2 .uadd16 .sl .sl .r4 .id, .ldr .r4 .r2 96 .off, .ldr .r5 .r2 100 .off, .ldr .r6 .r2 104 .off,
  .ldr .fp .r2 108 .off, .op2 .uadd16 .r4 .r4 .r0 .id, .str .r4 .r2 96 .off, .op2 .uadd16 .r5 .r5 .r3 .id, .str .r5 .r2 100 .off,
  .op2 .uadd16 .r6 .r6 .r9 .id, .str .r6 .r2 104 .off, .op2 .uadd16 .fp .fp .sl .id, .str .fp .r2 108 .off, .ldr .r4 .r1 156 .off,
  .ldr .r5 .r1 28 .off, .ldr .r6 .sp 924 .off, .ldr .r7 .sp 1052 .off, .ldr .r8 .sp 1180 .off, .ldr .r9 .sp 1308 .off,
  .ldr .sl .sp 1436 .off, .op2 .uadd16 .r5 .r5 .r8 .id, .op2 .usub16 .r9 .r9 .r8 .id, .op2 .usub16 .r7 .r7 .r6 .id,
  .op2 .usub16 .r8 .r8 .r4 .id, .op1 (.lsr 16) .r0 .sl, .op1 (.lsl 6) .r3 .sl, .op2 .pkhbt .r3 .r3 .r0 (.lsl 22),
  .op2 .usub16 .r8 .r8 .r3 .id, .op1 (.lsl 16) .r0 .r7, .op1 (.lsr 1) .r3 .r7, .op2 .pkhtb .r7 .r3 .r0 (.asr 17),
  .op2 .uadd16 .r6 .r6 .r7 .id, .op1 (.lsr 16) .r0 .r8, .op1 (.lsl 1) .r3 .r8, .op2 .pkhbt .r3 .r3 .r0 (.lsl 17),
  .op2 .uadd16 .r8 .r9 .r3 .id, .op1 (.lsr 16) .r0 .r6]

/-- tc.s:2935-3054 -/
def toom_cook_4way_striding_asm_32 : List Ins := [
  .op1 (.lsl 6) .r3 .r6, .op2 .pkhbt .r3 .r3 .r0 (.lsl 22), .op2 .uadd16 .r3 .r6 .r3 .id, .op2 .usub16 .r5 .r5 .r3 .id,
  .op2 .usub16 .r6 .r6 .sl .id, .op2 .usub16 .r6 .r6 .r4 .id, .movi .r3 45, .op2 .smulbb .r0 .r6 .r3 .id, .op2 .smultb .r3 .r6 .r3 .id,
  .op2 .pkhbt .r3 .r0 .r3 (.lsl 16), .op2 .uadd16 .r5 .r5 .r3 .id, .op1 (.lsr 16) .r0 .r6, .op1 (.lsl 3) .r3 .r6,
  .op2 .pkhbt .r3 .r3 .r0 (.lsl 19), .op2 .usub16 .r8 .r8 .r3 .id, .movi .r3 43691, .op2 .smulbb .r0 .r8 .r3 .id,
  .op2 .smultb .r3 .r8 .r3 .id, .op2 .pkhbt .r3 .r0 .r3 (.lsl 16), .op1 (.lsl 16) .r0 .r3, .op1 (.lsr 3) .r3 .r3,
  .op2 .pkhtb .r8 .r3 .r0 (.asr 19), .op2 .uadd16 .r9 .r5 .r9 .id, .op1 (.lsr 16) .r0 .r7, .op1 (.lsl 4) .r3 .r7,
  .op2 .pkhbt .r3 .r3 .r0 (.lsl 20), .op2 .uadd16 .r5 .r5 .r3 .id, .movi .r3 36409, .op2 .smulbb .r0 .r5 .r3 .id,
  .op2 .smultb .r3 .r5 .r3 .id, .op2 .pkhbt .r3 .r0 .r3 (.lsl 16), .op1 (.lsl 16) .r0 .r3, .op1 (.lsr 1) .r3 .r3,
  .op2 .pkhtb .r5 .r3 .r0 (.asr 17), .op2 .usub16 .r6 .r6 .r8 .id, .op2 .uadd16 .r7 .r7 .r5 .id, .movi .r3 0,
  .op2 .usub16 .r7 .r3 .r7 .id, .movi .r3 30, .op2 .smulbb .r0 .r5 .r3 .id, .op2 .smultb .r3 .r5 .r3 .id,
  .op2 .pkhbt .r3 .r0 .r3 (.lsl 16), .op2 .usub16 .r9 .r3 .r9 .id, .movi .r3 61167, .op2 .smulbb .r0 .r9 .r3 .id,
  .op2 .smultb .r3 .r9 .r3 .id, .op2 .pkhbt .r3 .r0 .r3 (.lsl 16), .op1 (.lsl 16) .r0 .r3, .op1 (.lsr 2) .r3 .r3,
  .op2 .pkhtb .r9 .r3 .r0 (.asr 18), .op2 .usub16 .r5 .r5 .r9 .id, .op2 .pkhbt .r0 .sl .r9 (.lsl 16), .op2 .pkhbt .r3 .r8 .r7 (.lsl 16),
  .op2 .uadd16 .r0 .r0 .lr .id, .op2 .uadd16 .r3 .r3 .ip .id, .op2 .pkhtb .lr .r5 .r6 (.asr 16), .op2 .pkhtb .ip .ip .r4 (.asr 16),
  .op2 .pkhbt .r5 .r6 .r5 (.lsl 16), .op2 .pkhbt .r4 .r4 .ip .id, .op2 .pkhtb .r9 .r9 .sl (.asr 16), .op2 .pkhtb .sl .r7 .r8 (.asr 16),
  .op2 .uadd16 .r9 .r9 .r5 .id, .op2 .uadd16 .sl .sl .r4 .id, .ldr .r4 .r2 112 .off, .ldr .r5 .r2 116 .off, .ldr .r6 .r2 120 .off,
  .ldr .fp .r2 124 .off, .op2 .uadd16 .r4 .r4 .r0 .id, .str .r4 .r2 112 .off, .op2 .uadd16 .r5 .r5 .r3 .id, .str .r5 .r2 116 .off,
  .op2 .uadd16 .r6 .r6 .r9 .id, .str .r6 .r2 120 .off, .op2 .uadd16 .fp .fp .sl .id, .str .fp .r2 124 .off, .ldr .r4 .r1 160 .off,
  .ldr .r5 .r1 32 .off, .ldr .r6 .sp 928 .off, .ldr .r7 .sp 1056 .off, .ldr .r8 .sp 1184 .off, .ldr .r9 .sp 1312 .off,
  .ldr .sl .sp 1440 .off, .op2 .uadd16 .r5 .r5 .r8 .id, .op2 .usub16 .r9 .r9 .r8 .id, .op2 .usub16 .r7 .r7 .r6 .id,
  .op2 .usub16 .r8 .r8 .r4 .id, .op1 (.lsr 16) .r0 .sl, .op1 (.lsl 6) .r3 .sl, .op2 .pkhbt .r3 .r3 .r0 (.lsl 22),
  .op2 .usub16 .r8 .r8 .r3 .id, .op1 (.lsl 16) .r0 .r7, .op1 (.lsr 1) .r3 .r7, .op2 .pkhtb .r7 .r3 .r0 (.asr 17),
  .op2 .uadd16 .r6 .r6 .r7 .id, .op1 (.lsr 16) .r0 .r8, .op1 (.lsl 1) .r3 .r8, .op2 .pkhbt .r3 .r3 .r0 (.lsl 17),
  .op2 .uadd16 .r8 .r9 .r3 .id, .op1 (.lsr 16) .r0 .r6, .op1 (.lsl 6) .r3 .r6, .op2 .pkhbt .r3 .r3 .r0 (.lsl 22),
  .op2 .uadd16 .r3 .r6 .r3 .id, .op2 .usub16 .r5 .r5 .r3 .id, .op2 .usub16 .r6 .r6 .sl .id, .op2 .usub16 .r6 .r6 .r4 .id, .movi .r3 45,
  .op2 .smulbb .r0 .r6 .r3 .id, .op2 .smultb .r3 .r6 .r3 .id, .op2 .pkhbt .r3 .r0 .r3 (.lsl 16), .op2 .uadd16 .r5 .r5 .r3 .id,
  .op1 (.lsr 16) .r0 .r6, .op1 (.lsl 3) .r3 .r6, .op2 .pkhbt .r3 .r3 .r0 (.lsl 19), .op2 .usub16 .r8 .r8 .r3 .id, .movi .r3 43691,
  .op2 .smulbb .r0 .r8 .r3 .id, .op2 .smultb .r3 .r8 .r3 .id, .op2 .pkhbt .r3 .r0 .r3 (.lsl 16), .op1 (.lsl 16) .r0 .r3,
  .op1 (.lsr 3) .r3 .r3]

/-- tc.s:3055-3174 -/
def toom_cook_4way_striding_asm_33 : List Ins := [
  .op2 .pkhtb .r8 .r3 .r0 (.asr 19), .op2 .uadd16 .r9 .r5 .r9 .id, .op1 (.lsr 16) .r0 .r7, .op1 (.lsl 4) .r3 .r7,
  .op2 .pkhbt .r3 .r3 .r0 (.lsl 20), .op2 .uadd16 .r5 .r5 .r3 .id, .movi .r3 36409, .op2 .smulbb .r0 .r5 .r3 .id,
  .op2 .smultb .r3 .r5 .r3 .id, .op2 .pkhbt .r3 .r0 .r3 (.lsl 16), .op1 (.lsl 16) .r0 .r3, .op1 (.lsr 1) .r3 .r3,
  .op2 .pkhtb .r5 .r3 .r0 (.asr 17), .op2 .usub16 .r6 .r6 .r8 .id, .op2 .uadd16 .r7 .r7 .r5 .id, .movi .r3 0,
  .op2 .usub16 .r7 .r3 .r7 .id, .movi .r3 30, .op2 .smulbb .r0 .r5 .r3 .id, .op2 .smultb .r3 .r5 .r3 .id,
  .op2 .pkhbt .r3 .r0 .r3 (.lsl 16), .op2 .usub16 .r9 .r3 .r9 .id, .movi .r3 61167, .op2 .smulbb .r0 .r9 .r3 .id,
  .op2 .smultb .r3 .r9 .r3 .id, .op2 .pkhbt .r3 .r0 .r3 (.lsl 16), .op1 (.lsl 16) .r0 .r3, .op1 (.lsr 2) .r3 .r3,
  .op2 .pkhtb .r9 .r3 .r0 (.asr 18), .op2 .usub16 .r5 .r5 .r9 .id, .op2 .pkhbt .r0 .sl .r9 (.lsl 16), .op2 .pkhbt .r3 .r8 .r7 (.lsl 16),
  .op2 .uadd16 .r0 .r0 .lr .id, .op2 .uadd16 .r3 .r3 .ip .id, .op2 .pkhtb .lr .r5 .r6 (.asr 16), .op2 .pkhtb .ip .ip .r4 (.asr 16),
  .op2 .pkhbt .r5 .r6 .r5 (.lsl 16), .op2 .pkhbt .r4 .r4 .ip .id, .op2 .pkhtb .r9 .r9 .sl (.asr 16), .op2 .pkhtb .sl .r7 .r8 (.asr 16),
  .op2 .uadd16 .r9 .r9 .r5 .id, .op2 .uadd16 .sl .sl .r4 .id, .ldr .r4 .r2 128 .off, .ldr .r5 .r2 132 .off, .ldr .r6 .r2 136 .off,
  .ldr .fp .r2 140 .off, .op2 .uadd16 .r4 .r4 .r0 .id, .str .r4 .r2 128 .off, .op2 .uadd16 .r5 .r5 .r3 .id, .str .r5 .r2 132 .off,
  .op2 .uadd16 .r6 .r6 .r9 .id, .str .r6 .r2 136 .off, .op2 .uadd16 .fp .fp .sl .id, .str .fp .r2 140 .off, .ldr .r4 .r1 164 .off,
  .ldr .r5 .r1 36 .off, .ldr .r6 .sp 932 .off, .ldr .r7 .sp 1060 .off, .ldr .r8 .sp 1188 .off, .ldr .r9 .sp 1316 .off,
  .ldr .sl .sp 1444 .off, .op2 .uadd16 .r5 .r5 .r8 .id, .op2 .usub16 .r9 .r9 .r8 .id, .op2 .usub16 .r7 .r7 .r6 .id,
  .op2 .usub16 .r8 .r8 .r4 .id, .op1 (.lsr 16) .r0 .sl, .op1 (.lsl 6) .r3 .sl, .op2 .pkhbt .r3 .r3 .r0 (.lsl 22),
  .op2 .usub16 .r8 .r8 .r3 .id, .op1 (.lsl 16) .r0 .r7, .op1 (.lsr 1) .r3 .r7, .op2 .pkhtb .r7 .r3 .r0 (.asr 17),
  .op2 .uadd16 .r6 .r6 .r7 .id, .op1 (.lsr 16) .r0 .r8, .op1 (.lsl 1) .r3 .r8, .op2 .pkhbt .r3 .r3 .r0 (.lsl 17),
  .op2 .uadd16 .r8 .r9 .r3 .id, .op1 (.lsr 16) .r0 .r6, .op1 (.lsl 6) .r3 .r6, .op2 .pkhbt .r3 .r3 .r0 (.lsl 22),
  .op2 .uadd16 .r3 .r6 .r3 .id, .op2 .usub16 .r5 .r5 .r3 .id, .op2 .usub16 .r6 .r6 .sl .id, .op2 .usub16 .r6 .r6 .r4 .id, .movi .r3 45,
  .op2 .smulbb .r0 .r6 .r3 .id, .op2 .smultb .r3 .r6 .r3 .id, .op2 .pkhbt .r3 .r0 .r3 (.lsl 16), .op2 .uadd16 .r5 .r5 .r3 .id,
  .op1 (.lsr 16) .r0 .r6, .op1 (.lsl 3) .r3 .r6, .op2 .pkhbt .r3 .r3 .r0 (.lsl 19), .op2 .usub16 .r8 .r8 .r3 .id, .movi .r3 43691,
  .op2 .smulbb .r0 .r8 .r3 .id, .op2 .smultb .r3 .r8 .r3 .id, .op2 .pkhbt .r3 .r0 .r3 (.lsl 16), .op1 (.lsl 16) .r0 .r3,
  .op1 (.lsr 3) .r3 .r3, .op2 .pkhtb .r8 .r3 .r0 (.asr 19), .op2 .uadd16 .r9 .r5 .r9 .id, .op1 (.lsr 16) .r0 .r7, .op1 (.lsl 4) .r3 .r7,
  .op2 .pkhbt .r3 .r3 .r0 (.lsl 20), .op2 .uadd16 .r5 .r5 .r3 .id, .movi .r3 36409, .op2 .smulbb .r0 .r5 .r3 .id,
  .op2 .smultb .r3 .r5 .r3 .id, .op2 .pkhbt .r3 .r0 .r3 (.lsl 16), .op1 (.lsl 16) .r0 .r3, .op1 (.lsr 1) .r3 .r3,
  .op2 .pkhtb .r5 .r3 .r0 (.asr 17), .op2 .usub16 .r6 .r6 .r8 .id, .op2 .uadd16 .r7 .r7 .r5 .id, .movi .r3 0,
  .op2 .usub16 .r7 .r3 .r7 .id, .movi .r3 30, .op2 .smulbb .r0 .r5 .r3 .id, .op2 .smultb .r3 .r5 .r3 .id,
  .op2 .pkhbt .r3 .r0 .r3 (.lsl 16)]

/-- tc.s:3175-3294 -/
def toom_cook_4way_striding_asm_34 : List Ins := [
  .op2 .usub16 .r9 .r3 .r9 .id, .movi .r3 61167, .op2 .smulbb .r0 .r9 .r3 .id, .op2 .smultb .r3 .r9 .r3 .id,
  .op2 .pkhbt .r3 .r0 .r3 (.lsl 16), .op1 (.lsl 16) .r0 .r3, .op1 (.lsr 2) .r3 .r3, .op2 .pkhtb .r9 .r3 .r0 (.asr 18),
  .op2 .usub16 .r5 .r5 .r9 .id, .op2 .pkhbt .r0 .sl .r9 (.lsl 16), .op2 .pkhbt .r3 .r8 .r7 (.lsl 16), .op2 .uadd16 .r0 .r0 .lr .id,
  .op2 .uadd16 .r3 .r3 .ip .id, .op2 .pkhtb .lr .r5 .r6 (.asr 16), .op2 .pkhtb .ip .ip .r4 (.asr 16), .op2 .pkhbt .r5 .r6 .r5 (.lsl 16),
  .op2 .pkhbt .r4 .r4 .ip .id, .op2 .pkhtb .r9 .r9 .sl (.asr 16), .op2 .pkhtb .sl .r7 .r8 (.asr 16), .op2 .uadd16 .r9 .r9 .r5 .id,
  .op2 .uadd16 .sl .sl .r4 .id, .ldr .r4 .r2 144 .off, .ldr .r5 .r2 148 .off, .ldr .r6 .r2 152 .off, .ldr .fp .r2 156 .off,
  .op2 .uadd16 .r4 .r4 .r0 .id, .str .r4 .r2 144 .off, .op2 .uadd16 .r5 .r5 .r3 .id, .str .r5 .r2 148 .off, .op2 .uadd16 .r6 .r6 .r9 .id,
  .str .r6 .r2 152 .off, .op2 .uadd16 .fp .fp .sl .id, .str .fp .r2 156 .off, .ldr .r4 .r1 168 .off, .ldr .r5 .r1 40 .off,
  .ldr .r6 .sp 936 .off, .ldr .r7 .sp 1064 .off, .ldr .r8 .sp 1192 .off, .ldr .r9 .sp 1320 .off, .ldr .sl .sp 1448 .off,
  .op2 .uadd16 .r5 .r5 .r8 .id, .op2 .usub16 .r9 .r9 .r8 .id, .op2 .usub16 .r7 .r7 .r6 .id, .op2 .usub16 .r8 .r8 .r4 .id,
  .op1 (.lsr 16) .r0 .sl, .op1 (.lsl 6) .r3 .sl, .op2 .pkhbt .r3 .r3 .r0 (.lsl 22), .op2 .usub16 .r8 .r8 .r3 .id, .op1 (.lsl 16) .r0 .r7,
  .op1 (.lsr 1) .r3 .r7, .op2 .pkhtb .r7 .r3 .r0 (.asr 17), .op2 .uadd16 .r6 .r6 .r7 .id, .op1 (.lsr 16) .r0 .r8, .op1 (.lsl 1) .r3 .r8,
  .op2 .pkhbt .r3 .r3 .r0 (.lsl 17), .op2 .uadd16 .r8 .r9 .r3 .id, .op1 (.lsr 16) .r0 .r6, .op1 (.lsl 6) .r3 .r6,
  .op2 .pkhbt .r3 .r3 .r0 (.lsl 22), .op2 .uadd16 .r3 .r6 .r3 .id, .op2 .usub16 .r5 .r5 .r3 .id, .op2 .usub16 .r6 .r6 .sl .id,
  .op2 .usub16 .r6 .r6 .r4 .id, .movi .r3 45, .op2 .smulbb .r0 .r6 .r3 .id, .op2 .smultb .r3 .r6 .r3 .id,
  .op2 .pkhbt .r3 .r0 .r3 (.lsl 16), .op2 .uadd16 .r5 .r5 .r3 .id, .op1 (.lsr 16) .r0 .r6, .op1 (.lsl 3) .r3 .r6,
  .op2 .pkhbt .r3 .r3 .r0 (.lsl 19), .op2 .usub16 .r8 .r8 .r3 .id, .movi .r3 43691, .op2 .smulbb .r0 .r8 .r3 .id,
  .op2 .smultb .r3 .r8 .r3 .id, .op2 .pkhbt .r3 .r0 .r3 (.lsl 16), .op1 (.lsl 16) .r0 .r3, .op1 (.lsr 3) .r3 .r3,
  .op2 .pkhtb .r8 .r3 .r0 (.asr 19), .op2 .uadd16 .r9 .r5 .r9 .id, .op1 (.lsr 16) .r0 .r7, .op1 (.lsl 4) .r3 .r7,
  .op2 .pkhbt .r3 .r3 .r0 (.lsl 20), .op2 .uadd16 .r5 .r5 .r3 .id, .movi .r3 36409, .op2 .smulbb .r0 .r5 .r3 .id,
  .op2 .smultb .r3 .r5 .r3 .id, .op2 .pkhbt .r3 .r0 .r3 (.lsl 16), .op1 (.lsl 16) .r0 .r3, .op1 (.lsr 1) .r3 .r3,
  .op2 .pkhtb .r5 .r3 .r0 (.asr 17), .op2 .usub16 .r6 .r6 .r8 .id, .op2 .uadd16 .r7 .r7 .r5 .id, .movi .r3 0,
  .op2 .usub16 .r7 .r3 .r7 .id, .movi .r3 30, .op2 .smulbb .r0 .r5 .r3 .id, .op2 .smultb .r3 .r5 .r3 .id,
  .op2 .pkhbt .r3 .r0 .r3 (.lsl 16), .op2 .usub16 .r9 .r3 .r9 .id, .movi .r3 61167, .op2 .smulbb .r0 .r9 .r3 .id,
  .op2 .smultb .r3 .r9 .r3 .id, .op2 .pkhbt .r3 .r0 .r3 (.lsl 16), .op1 (.lsl 16) .r0 .r3, .op1 (.lsr 2) .r3 .r3,
  .op2 .pkhtb .r9 .r3 .r0 (.asr 18), .op2 .usub16 .r5 .r5 .r9 .id, .op2 .pkhbt .r0 .sl .r9 (.lsl 16), .op2 .pkhbt .r3 .r8 .r7 (.lsl 16),
  .op2 .uadd16 .r0 .r0 .lr .id, .op2 .uadd16 .r3 .r3 .ip .id, .op2 .pkhtb .lr .r5 .r6 (.asr 16), .op2 .pkhtb .ip .ip .r4 (.asr 16),
  .op2 .pkhbt .r5 .r6 .r5 (.lsl 16), .op2 .pkhbt .r4 .r4 .ip .id, .op2 .pkhtb .r9 .r9 .sl (.asr 16), .op2 .pkhtb .sl .r7 .r8 (.asr 16),
  .op2 .uadd16 .r9 .r9 .r5 .id, .op2 .uadd16 .sl .sl .r4 .id]

/-- tc.s:3295-3414 -/
def toom_cook_4way_striding_asm_35 : List Ins := [
  .ldr .r4 .r2 160 .off, .ldr .r5 .r2 164 .off, .ldr .r6 .r2 168 .off, .ldr .fp .r2 172 .off, .op2 .uadd16 .r4 .r4 .r0 .id,
  .str .r4 .r2 160 .off, .op2 .uadd16 .r5 .r5 .r3 .id, .str .r5 .r2 164 .off, .op2 .uadd16 .r6 .r6 .r9 .id, .str .r6 .r2 168 .off,
  .op2 .uadd16 .fp .fp .sl .id, .str .fp .r2 172 .off, .ldr .r4 .r1 172 .off, .ldr .r5 .r1 44 .off, .ldr .r6 .sp 940 .off,
  .ldr .r7 .sp 1068 .off, .ldr .r8 .sp 1196 .off, .ldr .r9 .sp 1324 .off, .ldr .sl .sp 1452 .off, .op2 .uadd16 .r5 .r5 .r8 .id,
  .op2 .usub16 .r9 .r9 .r8 .id, .op2 .usub16 .r7 .r7 .r6 .id, .op2 .usub16 .r8 .r8 .r4 .id, .op1 (.lsr 16) .r0 .sl,
  .op1 (.lsl 6) .r3 .sl, .op2 .pkhbt .r3 .r3 .r0 (.lsl 22), .op2 .usub16 .r8 .r8 .r3 .id, .op1 (.lsl 16) .r0 .r7, .op1 (.lsr 1) .r3 .r7,
  .op2 .pkhtb .r7 .r3 .r0 (.asr 17), .op2 .uadd16 .r6 .r6 .r7 .id, .op1 (.lsr 16) .r0 .r8, .op1 (.lsl 1) .r3 .r8,
  .op2 .pkhbt .r3 .r3 .r0 (.lsl 17), .op2 .uadd16 .r8 .r9 .r3 .id, .op1 (.lsr 16) .r0 .r6, .op1 (.lsl 6) .r3 .r6,
  .op2 .pkhbt .r3 .r3 .r0 (.lsl 22), .op2 .uadd16 .r3 .r6 .r3 .id, .op2 .usub16 .r5 .r5 .r3 .id, .op2 .usub16 .r6 .r6 .sl .id,
  .op2 .usub16 .r6 .r6 .r4 .id, .movi .r3 45, .op2 .smulbb .r0 .r6 .r3 .id, .op2 .smultb .r3 .r6 .r3 .id,
  .op2 .pkhbt .r3 .r0 .r3 (.lsl 16), .op2 .uadd16 .r5 .r5 .r3 .id, .op1 (.lsr 16) .r0 .r6, .op1 (.lsl 3) .r3 .r6,
  .op2 .pkhbt .r3 .r3 .r0 (.lsl 19), .op2 .usub16 .r8 .r8 .r3 .id, .movi .r3 43691, .op2 .smulbb .r0 .r8 .r3 .id,
  .op2 .smultb .r3 .r8 .r3 .id, .op2 .pkhbt .r3 .r0 .r3 (.lsl 16), .op1 (.lsl 16) .r0 .r3, .op1 (.lsr 3) .r3 .r3,
  .op2 .pkhtb .r8 .r3 .r0 (.asr 19), .op2 .uadd16 .r9 .r5 .r9 .id, .op1 (.lsr 16) .r0 .r7, .op1 (.lsl 4) .r3 .r7,
  .op2 .pkhbt .r3 .r3 .r0 (.lsl 20), .op2 .uadd16 .r5 .r5 .r3 .id, .movi .r3 36409, .op2 .smulbb .r0 .r5 .r3 .id,
  .op2 .smultb .r3 .r5 .r3 .id, .op2 .pkhbt .r3 .r0 .r3 (.lsl 16), .op1 (.lsl 16) .r0 .r3, .op1 (.lsr 1) .r3 .r3,
  .op2 .pkhtb .r5 .r3 .r0 (.asr 17), .op2 .usub16 .r6 .r6 .r8 .id, .op2 .uadd16 .r7 .r7 .r5 .id, .movi .r3 0,
  .op2 .usub16 .r7 .r3 .r7 .id, .movi .r3 30, .op2 .smulbb .r0 .r5 .r3 .id, .op2 .smultb .r3 .r5 .r3 .id,
  .op2 .pkhbt .r3 .r0 .r3 (.lsl 16), .op2 .usub16 .r9 .r3 .r9 .id, .movi .r3 61167, .op2 .smulbb .r0 .r9 .r3 .id,
  .op2 .smultb .r3 .r9 .r3 .id, .op2 .pkhbt .r3 .r0 .r3 (.lsl 16), .op1 (.lsl 16) .r0 .r3, .op1 (.lsr 2) .r3 .r3,
  .op2 .pkhtb .r9 .r3 .r0 (.asr 18), .op2 .usub16 .r5 .r5 .r9 .id, .op2 .pkhbt .r0 .sl .r9 (.lsl 16), .op2 .pkhbt .r3 .r8 .r7 (.lsl 16),
  .op2 .uadd16 .r0 .r0 .lr .id, .op2 .uadd16 .r3 .r3 .ip .id, .op2 .pkhtb .lr .r5 .r6 (.asr 16), .op2 .pkhtb .ip .ip .r4 (.asr 16),
  .op2 .pkhbt .r5 .r6 .r5 (.lsl 16), .op2 .pkhbt .r4 .r4 .ip .id, .op2 .pkhtb .r9 .r9 .sl (.asr 16), .op2 .pkhtb .sl .r7 .r8 (.asr 16),
  .op2 .uadd16 .r9 .r9 .r5 .id, .op2 .uadd16 .sl .sl .r4 .id, .ldr .r4 .r2 176 .off, .ldr .r5 .r2 180 .off, .ldr .r6 .r2 184 .off,
  .ldr .fp .r2 188 .off, .op2 .uadd16 .r4 .r4 .r0 .id, .str .r4 .r2 176 .off, .op2 .uadd16 .r5 .r5 .r3 .id, .str .r5 .r2 180 .off,
  .op2 .uadd16 .r6 .r6 .r9 .id, .str .r6 .r2 184 .off, .op2 .uadd16 .fp .fp .sl .id, .str .fp .r2 188 .off, .ldr .r4 .r1 176 .off,
  .ldr .r5 .r1 48 .off, .ldr .r6 .sp 944 .off, .ldr .r7 .sp 1072 .off, .ldr .r8 .sp 1200 .off, .ldr .r9 .sp 1328 .off,
  .ldr .sl .sp 1456 .off, .op2 .uadd16 .r5 .r5 .r8 .id, .op2 .usub16 .r9 .r9 .r8 .id]

/-- tc.s:3415-3534 -/
def toom_cook_4way_striding_asm_36 : List Ins := [
  .op2 .usub16 .r7 .r7 .r6 .id, .op2 .usub16 .r8 .r8 .r4 .id, .op1 (.lsr 16) .r0 .sl, .op1 (.lsl 6) .r3 .sl,
  .op2 .pkhbt .r3 .r3 .r0 (.lsl 22), .op2 .usub16 .r8 .r8 .r3 .id, .op1 (.lsl 16) .r0 .r7, .op1 (.lsr 1) .r3 .r7,
  .op2 .pkhtb .r7 .r3 .r0 (.asr 17), .op2 .uadd16 .r6 .r6 .r7 .id, .op1 (.lsr 16) .r0 .r8, .op1 (.lsl 1) .r3 .r8,
  .op2 .pkhbt .r3 .r3 .r0 (.lsl 17), .op2 .uadd16 .r8 .r9 .r3 .id, .op1 (.lsr 16) .r0 .r6, .op1 (.lsl 6) .r3 .r6,
  .op2 .pkhbt .r3 .r3 .r0 (.lsl 22), .op2 .uadd16 .r3 .r6 .r3 .id, .op2 .usub16 .r5 .r5 .r3 .id, .op2 .usub16 .r6 .r6 .sl .id,
  .op2 .usub16 .r6 .r6 .r4 .id, .movi .r3 45, .op2 .smulbb .r0 .r6 .r3 .id, .op2 .smultb .r3 .r6 .r3 .id,
  .op2 .pkhbt .r3 .r0 .r3 (.lsl 16), .op2 .uadd16 .r5 .r5 .r3 .id, .op1 (.lsr 16) .r0 .r6, .op1 (.lsl 3) .r3 .r6,
  .op2 .pkhbt .r3 .r3 .r0 (.lsl 19), .op2 .usub16 .r8 .r8 .r3 .id, .movi .r3 43691, .op2 .smulbb .r0 .r8 .r3 .id,
  .op2 .smultb .r3 .r8 .r3 .id, .op2 .pkhbt .r3 .r0 .r3 (.lsl 16), .op1 (.lsl 16) .r0 .r3, .op1 (.lsr 3) .r3 .r3,
  .op2 .pkhtb .r8 .r3 .r0 (.asr 19), .op2 .uadd16 .r9 .r5 .r9 .id, .op1 (.lsr 16) .r0 .r7, .op1 (.lsl 4) .r3 .r7,
  .op2 .pkhbt .r3 .r3 .r0 (.lsl 20), .op2 .uadd16 .r5 .r5 .r3 .id, .movi .r3 36409, .op2 .smulbb .r0 .r5 .r3 .id,
  .op2 .smultb .r3 .r5 .r3 .id, .op2 .pkhbt .r3 .r0 .r3 (.lsl 16), .op1 (.lsl 16) .r0 .r3, .op1 (.lsr 1) .r3 .r3,
  .op2 .pkhtb .r5 .r3 .r0 (.asr 17), .op2 .usub16 .r6 .r6 .r8 .id, .op2 .uadd16 .r7 .r7 .r5 .id, .movi .r3 0,
  .op2 .usub16 .r7 .r3 .r7 .id, .movi .r3 30, .op2 .smulbb .r0 .r5 .r3 .id, .op2 .smultb .r3 .r5 .r3 .id,
  .op2 .pkhbt .r3 .r0 .r3 (.lsl 16), .op2 .usub16 .r9 .r3 .r9 .id, .movi .r3 61167, .op2 .smulbb .r0 .r9 .r3 .id,
  .op2 .smultb .r3 .r9 .r3 .id, .op2 .pkhbt .r3 .r0 .r3 (.lsl 16), .op1 (.lsl 16) .r0 .r3, .op1 (.lsr 2) .r3 .r3,
  .op2 .pkhtb .r9 .r3 .r0 (.asr 18), .op2 .usub16 .r5 .r5 .r9 .id, .op2 .pkhbt .r0 .sl .r9 (.lsl 16), .op2 .pkhbt .r3 .r8 .r7 (.lsl 16),
  .op2 .uadd16 .r0 .r0 .lr .id, .op2 .uadd16 .r3 .r3 .ip .id, .op2 .pkhtb .lr .r5 .r6 (.asr 16), .op2 .pkhtb .ip .ip .r4 (.asr 16),
  .op2 .pkhbt .r5 .r6 .r5 (.lsl 16), .op2 .pkhbt .r4 .r4 .ip .id, .op2 .pkhtb .r9 .r9 .sl (.asr 16), .op2 .pkhtb .sl .r7 .r8 (.asr 16),
  .op2 .uadd16 .r9 .r9 .r5 .id, .op2 .uadd16 .sl .sl .r4 .id, .ldr .r4 .r2 192 .off, .ldr .r5 .r2 196 .off, .ldr .r6 .r2 200 .off,
  .ldr .fp .r2 204 .off, .op2 .uadd16 .r4 .r4 .r0 .id, .str .r4 .r2 192 .off, .op2 .uadd16 .r5 .r5 .r3 .id, .str .r5 .r2 196 .off,
  .op2 .uadd16 .r6 .r6 .r9 .id, .str .r6 .r2 200 .off, .op2 .uadd16 .fp .fp .sl .id, .str .fp .r2 204 .off, .ldr .r4 .r1 180 .off,
  .ldr .r5 .r1 52 .off, .ldr .r6 .sp 948 .off, .ldr .r7 .sp 1076 .off, .ldr .r8 .sp 1204 .off, .ldr .r9 .sp 1332 .off,
  .ldr .sl .sp 1460 .off, .op2 .uadd16 .r5 .r5 .r8 .id, .op2 .usub16 .r9 .r9 .r8 .id, .op2 .usub16 .r7 .r7 .r6 .id,
  .op2 .usub16 .r8 .r8 .r4 .id, .op1 (.lsr 16) .r0 .sl, .op1 (.lsl 6) .r3 .sl, .op2 .pkhbt .r3 .r3 .r0 (.lsl 22),
  .op2 .usub16 .r8 .r8 .r3 .id, .op1 (.lsl 16) .r0 .r7, .op1 (.lsr 1) .r3 .r7, .op2 .pkhtb .r7 .r3 .r0 (.asr 17),
  .op2 .uadd16 .r6 .r6 .r7 .id, .op1 (.lsr 16) .r0 .r8, .op1 (.lsl 1) .r3 .r8, .op2 .pkhbt .r3 .r3 .r0 (.lsl 17),
  .op2 .uadd16 .r8 .r9 .r3 .id, .op1 (.lsr 16) .r0 .r6, .op1 (.lsl 6) .r3 .r6, .op2 .pkhbt .r3 .r3 .r0 (.lsl 22),
  .op2 .uadd16 .r3 .r6 .r3 .id, .op2 .usub16 .r5 .r5 .r3 .id, .op2 .usub16 .r6 .r6 .sl .id, .op2 .usub16 .r6 .r6 .r4 .id]

/-- tc.s:3535-3654 -/
def toom_cook_4way_striding_asm_37 : List Ins := [
  .movi .r3 45, .op2 .smulbb .r0 .r6 .r3 .id, .op2 .smultb .r3 .r6 .r3 .id, .op2 .pkhbt .r3 .r0 .r3 (.lsl 16),
  .op2 .uadd16 .r5 .r5 .r3 .id, .op1 (.lsr 16) .r0 .r6, .op1 (.lsl 3) .r3 .r6, .op2 .pkhbt .r3 .r3 .r0 (.lsl 19),
  .op2 .usub16 .r8 .r8 .r3 .id, .movi .r3 43691, .op2 .smulbb .r0 .r8 .r3 .id, .op2 .smultb .r3 .r8 .r3 .id,
  .op2 .pkhbt .r3 .r0 .r3 (.lsl 16), .op1 (.lsl 16) .r0 .r3, .op1 (.lsr 3) .r3 .r3, .op2 .pkhtb .r8 .r3 .r0 (.asr 19),
  .op2 .uadd16 .r9 .r5 .r9 .id, .op1 (.lsr 16) .r0 .r7, .op1 (.lsl 4) .r3 .r7, .op2 .pkhbt .r3 .r3 .r0 (.lsl 20),
  .op2 .uadd16 .r5 .r5 .r3 .id, .movi .r3 36409, .op2 .smulbb .r0 .r5 .r3 .id, .op2 .smultb .r3 .r5 .r3 .id,
  .op2 .pkhbt .r3 .r0 .r3 (.lsl 16), .op1 (.lsl 16) .r0 .r3, .op1 (.lsr 1) .r3 .r3, .op2 .pkhtb .r5 .r3 .r0 (.asr 17),
  .op2 .usub16 .r6 .r6 .r8 .id, .op2 .uadd16 .r7 .r7 .r5 .id, .movi .r3 0, .op2 .usub16 .r7 .r3 .r7 .id, .movi .r3 30,
  .op2 .smulbb .r0 .r5 .r3 .id, .op2 .smultb .r3 .r5 .r3 .id, .op2 .pkhbt .r3 .r0 .r3 (.lsl 16), .op2 .usub16 .r9 .r3 .r9 .id,
  .movi .r3 61167, .op2 .smulbb .r0 .r9 .r3 .id, .op2 .smultb .r3 .r9 .r3 .id, .op2 .pkhbt .r3 .r0 .r3 (.lsl 16), .op1 (.lsl 16) .r0 .r3,
  .op1 (.lsr 2) .r3 .r3, .op2 .pkhtb .r9 .r3 .r0 (.asr 18), .op2 .usub16 .r5 .r5 .r9 .id, .op2 .pkhbt .r0 .sl .r9 (.lsl 16),
  .op2 .pkhbt .r3 .r8 .r7 (.lsl 16), .op2 .uadd16 .r0 .r0 .lr .id, .op2 .uadd16 .r3 .r3 .ip .id, .op2 .pkhtb .lr .r5 .r6 (.asr 16),
  .op2 .pkhtb .ip .ip .r4 (.asr 16), .op2 .pkhbt .r5 .r6 .r5 (.lsl 16), .op2 .pkhbt .r4 .r4 .ip .id, .op2 .pkhtb .r9 .r9 .sl (.asr 16),
  .op2 .pkhtb .sl .r7 .r8 (.asr 16), .op2 .uadd16 .r9 .r9 .r5 .id, .op2 .uadd16 .sl .sl .r4 .id, .ldr .r4 .r2 208 .off,
  .ldr .r5 .r2 212 .off, .ldr .r6 .r2 216 .off, .ldr .fp .r2 220 .off, .op2 .uadd16 .r4 .r4 .r0 .id, .str .r4 .r2 208 .off,
  .op2 .uadd16 .r5 .r5 .r3 .id, .str .r5 .r2 212 .off, .op2 .uadd16 .r6 .r6 .r9 .id, .str .r6 .r2 216 .off, .op2 .uadd16 .fp .fp .sl .id,
  .str .fp .r2 220 .off, .ldr .r4 .r1 184 .off, .ldr .r5 .r1 56 .off, .ldr .r6 .sp 952 .off, .ldr .r7 .sp 1080 .off,
  .ldr .r8 .sp 1208 .off, .ldr .r9 .sp 1336 .off, .ldr .sl .sp 1464 .off, .op2 .uadd16 .r5 .r5 .r8 .id, .op2 .usub16 .r9 .r9 .r8 .id,
  .op2 .usub16 .r7 .r7 .r6 .id, .op2 .usub16 .r8 .r8 .r4 .id, .op1 (.lsr 16) .r0 .sl, .op1 (.lsl 6) .r3 .sl,
  .op2 .pkhbt .r3 .r3 .r0 (.lsl 22), .op2 .usub16 .r8 .r8 .r3 .id, .op1 (.lsl 16) .r0 .r7, .op1 (.lsr 1) .r3 .r7,
  .op2 .pkhtb .r7 .r3 .r0 (.asr 17), .op2 .uadd16 .r6 .r6 .r7 .id, .op1 (.lsr 16) .r0 .r8, .op1 (.lsl 1) .r3 .r8,
  .op2 .pkhbt .r3 .r3 .r0 (.lsl 17), .op2 .uadd16 .r8 .r9 .r3 .id, .op1 (.lsr 16) .r0 .r6, .op1 (.lsl 6) .r3 .r6,
  .op2 .pkhbt .r3 .r3 .r0 (.lsl 22), .op2 .uadd16 .r3 .r6 .r3 .id, .op2 .usub16 .r5 .r5 .r3 .id, .op2 .usub16 .r6 .r6 .sl .id,
  .op2 .usub16 .r6 .r6 .r4 .id, .movi .r3 45, .op2 .smulbb .r0 .r6 .r3 .id, .op2 .smultb .r3 .r6 .r3 .id,
  .op2 .pkhbt .r3 .r0 .r3 (.lsl 16), .op2 .uadd16 .r5 .r5 .r3 .id, .op1 (.lsr 16) .r0 .r6, .op1 (.lsl 3) .r3 .r6,
  .op2 .pkhbt .r3 .r3 .r0 (.lsl 19), .op2 .usub16 .r8 .r8 .r3 .id, .movi .r3 43691, .op2 .smulbb .r0 .r8 .r3 .id,
  .op2 .smultb .r3 .r8 .r3 .id, .op2 .pkhbt .r3 .r0 .r3 (.lsl 16), .op1 (.lsl 16) .r0 .r3, .op1 (.lsr 3) .r3 .r3,
  .op2 .pkhtb .r8 .r3 .r0 (.asr 19), .op2 .uadd16 .r9 .r5 .r9 .id, .op1 (.lsr 16) .r0 .r7, .op1 (.lsl 4) .r3 .r7,
  .op2 .pkhbt .r3 .r3 .r0 (.lsl 20), .op2 .uadd16 .r5 .r5 .r3 .id]

/-- tc.s:3655-3774 -/
def toom_cook_4way_striding_asm_38 : List Ins := [
  .movi .r3 36409, .op2 .smulbb .r0 .r5 .r3 .id, .op2 .smultb .r3 .r5 .r3 .id, .op2 .pkhbt .r3 .r0 .r3 (.lsl 16), .op1 (.lsl 16) .r0 .r3,
  .op1 (.lsr 1) .r3 .r3, .op2 .pkhtb .r5 .r3 .r0 (.asr 17), .op2 .usub16 .r6 .r6 .r8 .id, .op2 .uadd16 .r7 .r7 .r5 .id, .movi .r3 0,
  .op2 .usub16 .r7 .r3 .r7 .id, .movi .r3 30, .op2 .smulbb .r0 .r5 .r3 .id, .op2 .smultb .r3 .r5 .r3 .id,
  .op2 .pkhbt .r3 .r0 .r3 (.lsl 16), .op2 .usub16 .r9 .r3 .r9 .id, .movi .r3 61167, .op2 .smulbb .r0 .r9 .r3 .id,
  .op2 .smultb .r3 .r9 .r3 .id, .op2 .pkhbt .r3 .r0 .r3 (.lsl 16), .op1 (.lsl 16) .r0 .r3, .op1 (.lsr 2) .r3 .r3,
  .op2 .pkhtb .r9 .r3 .r0 (.asr 18), .op2 .usub16 .r5 .r5 .r9 .id, .op2 .pkhbt .r0 .sl .r9 (.lsl 16), .op2 .pkhbt .r3 .r8 .r7 (.lsl 16),
  .op2 .uadd16 .r0 .r0 .lr .id, .op2 .uadd16 .r3 .r3 .ip .id, .op2 .pkhtb .lr .r5 .r6 (.asr 16), .op2 .pkhtb .ip .ip .r4 (.asr 16),
  .op2 .pkhbt .r5 .r6 .r5 (.lsl 16), .op2 .pkhbt .r4 .r4 .ip .id, .op2 .pkhtb .r9 .r9 .sl (.asr 16), .op2 .pkhtb .sl .r7 .r8 (.asr 16),
  .op2 .uadd16 .r9 .r9 .r5 .id, .op2 .uadd16 .sl .sl .r4 .id, .ldr .r4 .r2 224 .off, .ldr .r5 .r2 228 .off, .ldr .r6 .r2 232 .off,
  .ldr .fp .r2 236 .off, .op2 .uadd16 .r4 .r4 .r0 .id, .str .r4 .r2 224 .off, .op2 .uadd16 .r5 .r5 .r3 .id, .str .r5 .r2 228 .off,
  .op2 .uadd16 .r6 .r6 .r9 .id, .str .r6 .r2 232 .off, .op2 .uadd16 .fp .fp .sl .id, .str .fp .r2 236 .off, .ldr .r4 .r1 188 .off,
  .ldr .r5 .r1 60 .off, .ldr .r6 .sp 956 .off, .ldr .r7 .sp 1084 .off, .ldr .r8 .sp 1212 .off, .ldr .r9 .sp 1340 .off,
  .ldr .sl .sp 1468 .off, .op2 .uadd16 .r5 .r5 .r8 .id, .op2 .usub16 .r9 .r9 .r8 .id, .op2 .usub16 .r7 .r7 .r6 .id,
  .op2 .usub16 .r8 .r8 .r4 .id, .op1 (.lsr 16) .r0 .sl, .op1 (.lsl 6) .r3 .sl, .op2 .pkhbt .r3 .r3 .r0 (.lsl 22),
  .op2 .usub16 .r8 .r8 .r3 .id, .op1 (.lsl 16) .r0 .r7, .op1 (.lsr 1) .r3 .r7, .op2 .pkhtb .r7 .r3 .r0 (.asr 17),
  .op2 .uadd16 .r6 .r6 .r7 .id, .op1 (.lsr 16) .r0 .r8, .op1 (.lsl 1) .r3 .r8, .op2 .pkhbt .r3 .r3 .r0 (.lsl 17),
  .op2 .uadd16 .r8 .r9 .r3 .id, .op1 (.lsr 16) .r0 .r6, .op1 (.lsl 6) .r3 .r6, .op2 .pkhbt .r3 .r3 .r0 (.lsl 22),
  .op2 .uadd16 .r3 .r6 .r3 .id, .op2 .usub16 .r5 .r5 .r3 .id, .op2 .usub16 .r6 .r6 .sl .id, .op2 .usub16 .r6 .r6 .r4 .id, .movi .r3 45,
  .op2 .smulbb .r0 .r6 .r3 .id, .op2 .smultb .r3 .r6 .r3 .id, .op2 .pkhbt .r3 .r0 .r3 (.lsl 16), .op2 .uadd16 .r5 .r5 .r3 .id,
  .op1 (.lsr 16) .r0 .r6, .op1 (.lsl 3) .r3 .r6, .op2 .pkhbt .r3 .r3 .r0 (.lsl 19), .op2 .usub16 .r8 .r8 .r3 .id, .movi .r3 43691,
  .op2 .smulbb .r0 .r8 .r3 .id, .op2 .smultb .r3 .r8 .r3 .id, .op2 .pkhbt .r3 .r0 .r3 (.lsl 16), .op1 (.lsl 16) .r0 .r3,
  .op1 (.lsr 3) .r3 .r3, .op2 .pkhtb .r8 .r3 .r0 (.asr 19), .op2 .uadd16 .r9 .r5 .r9 .id, .op1 (.lsr 16) .r0 .r7, .op1 (.lsl 4) .r3 .r7,
  .op2 .pkhbt .r3 .r3 .r0 (.lsl 20), .op2 .uadd16 .r5 .r5 .r3 .id, .movi .r3 36409, .op2 .smulbb .r0 .r5 .r3 .id,
  .op2 .smultb .r3 .r5 .r3 .id, .op2 .pkhbt .r3 .r0 .r3 (.lsl 16), .op1 (.lsl 16) .r0 .r3, .op1 (.lsr 1) .r3 .r3,
  .op2 .pkhtb .r5 .r3 .r0 (.asr 17), .op2 .usub16 .r6 .r6 .r8 .id, .op2 .uadd16 .r7 .r7 .r5 .id, .movi .r3 0,
  .op2 .usub16 .r7 .r3 .r7 .id, .movi .r3 30, .op2 .smulbb .r0 .r5 .r3 .id, .op2 .smultb .r3 .r5 .r3 .id,
  .op2 .pkhbt .r3 .r0 .r3 (.lsl 16), .op2 .usub16 .r9 .r3 .r9 .id, .movi .r3 61167, .op2 .smulbb .r0 .r9 .r3 .id,
  .op2 .smultb .r3 .r9 .r3 .id, .op2 .pkhbt .r3 .r0 .r3 (.lsl 16), .op1 (.lsl 16) .r0 .r3]

/-- tc.s:3775-3894 -/
def toom_cook_4way_striding_asm_39 : List Ins := [
  .op1 (.lsr 2) .r3 .r3, .op2 .pkhtb .r9 .r3 .r0 (.asr 18), .op2 .usub16 .r5 .r5 .r9 .id, .op2 .pkhbt .r0 .sl .r9 (.lsl 16),
  .op2 .pkhbt .r3 .r8 .r7 (.lsl 16), .op2 .uadd16 .r0 .r0 .lr .id, .op2 .uadd16 .r3 .r3 .ip .id, .op2 .pkhtb .lr .r5 .r6 (.asr 16),
  .op2 .pkhtb .ip .ip .r4 (.asr 16), .op2 .pkhbt .r5 .r6 .r5 (.lsl 16), .op2 .pkhbt .r4 .r4 .ip .id, .op2 .pkhtb .r9 .r9 .sl (.asr 16),
  .op2 .pkhtb .sl .r7 .r8 (.asr 16), .op2 .uadd16 .r9 .r9 .r5 .id, .op2 .uadd16 .sl .sl .r4 .id, .ldr .r4 .r2 240 .off,
  .ldr .r5 .r2 244 .off, .ldr .r6 .r2 248 .off, .ldr .fp .r2 252 .off, .op2 .uadd16 .r4 .r4 .r0 .id, .str .r4 .r2 240 .off,
  .op2 .uadd16 .r5 .r5 .r3 .id, .str .r5 .r2 244 .off, .op2 .uadd16 .r6 .r6 .r9 .id, .str .r6 .r2 248 .off, .op2 .uadd16 .fp .fp .sl .id,
  .str .fp .r2 252 .off, .ldr .r4 .r1 192 .off, .ldr .r5 .r1 64 .off, .ldr .r6 .sp 960 .off, .ldr .r7 .sp 1088 .off,
  .ldr .r8 .sp 1216 .off, .ldr .r9 .sp 1344 .off, .ldr .sl .sp 1472 .off, .op2 .uadd16 .r5 .r5 .r8 .id, .op2 .usub16 .r9 .r9 .r8 .id,
  .op2 .usub16 .r7 .r7 .r6 .id, .op2 .usub16 .r8 .r8 .r4 .id, .op1 (.lsr 16) .r0 .sl, .op1 (.lsl 6) .r3 .sl,
  .op2 .pkhbt .r3 .r3 .r0 (.lsl 22), .op2 .usub16 .r8 .r8 .r3 .id, .op1 (.lsl 16) .r0 .r7, .op1 (.lsr 1) .r3 .r7,
  .op2 .pkhtb .r7 .r3 .r0 (.asr 17), .op2 .uadd16 .r6 .r6 .r7 .id, .op1 (.lsr 16) .r0 .r8, .op1 (.lsl 1) .r3 .r8,
  .op2 .pkhbt .r3 .r3 .r0 (.lsl 17), .op2 .uadd16 .r8 .r9 .r3 .id, .op1 (.lsr 16) .r0 .r6, .op1 (.lsl 6) .r3 .r6,
  .op2 .pkhbt .r3 .r3 .r0 (.lsl 22), .op2 .uadd16 .r3 .r6 .r3 .id, .op2 .usub16 .r5 .r5 .r3 .id, .op2 .usub16 .r6 .r6 .sl .id,
  .op2 .usub16 .r6 .r6 .r4 .id, .movi .r3 45, .op2 .smulbb .r0 .r6 .r3 .id, .op2 .smultb .r3 .r6 .r3 .id,
  .op2 .pkhbt .r3 .r0 .r3 (.lsl 16), .op2 .uadd16 .r5 .r5 .r3 .id, .op1 (.lsr 16) .r0 .r6, .op1 (.lsl 3) .r3 .r6,
  .op2 .pkhbt .r3 .r3 .r0 (.lsl 19), .op2 .usub16 .r8 .r8 .r3 .id, .movi .r3 43691, .op2 .smulbb .r0 .r8 .r3 .id,
  .op2 .smultb .r3 .r8 .r3 .id, .op2 .pkhbt .r3 .r0 .r3 (.lsl 16), .op1 (.lsl 16) .r0 .r3, .op1 (.lsr 3) .r3 .r3,
  .op2 .pkhtb .r8 .r3 .r0 (.asr 19), .op2 .uadd16 .r9 .r5 .r9 .id, .op1 (.lsr 16) .r0 .r7, .op1 (.lsl 4) .r3 .r7,
  .op2 .pkhbt .r3 .r3 .r0 (.lsl 20), .op2 .uadd16 .r5 .r5 .r3 .id, .movi .r3 36409, .op2 .smulbb .r0 .r5 .r3 .id,
  .op2 .smultb .r3 .r5 .r3 .id, .op2 .pkhbt .r3 .r0 .r3 (.lsl 16), .op1 (.lsl 16) .r0 .r3, .op1 (.lsr 1) .r3 .r3,
  .op2 .pkhtb .r5 .r3 .r0 (.asr 17), .op2 .usub16 .r6 .r6 .r8 .id, .op2 .uadd16 .r7 .r7 .r5 .id, .movi .r3 0,
  .op2 .usub16 .r7 .r3 .r7 .id, .movi .r3 30, .op2 .smulbb .r0 .r5 .r3 .id, .op2 .smultb .r3 .r5 .r3 .id,
  .op2 .pkhbt .r3 .r0 .r3 (.lsl 16), .op2 .usub16 .r9 .r3 .r9 .id, .movi .r3 61167, .op2 .smulbb .r0 .r9 .r3 .id,
  .op2 .smultb .r3 .r9 .r3 .id, .op2 .pkhbt .r3 .r0 .r3 (.lsl 16), .op1 (.lsl 16) .r0 .r3, .op1 (.lsr 2) .r3 .r3,
  .op2 .pkhtb .r9 .r3 .r0 (.asr 18), .op2 .usub16 .r5 .r5 .r9 .id, .op2 .pkhbt .r0 .sl .r9 (.lsl 16), .op2 .pkhbt .r3 .r8 .r7 (.lsl 16),
  .op2 .uadd16 .r0 .r0 .lr .id, .op2 .uadd16 .r3 .r3 .ip .id, .op2 .pkhtb .lr .r5 .r6 (.asr 16), .op2 .pkhtb .ip .ip .r4 (.asr 16),
  .op2 .pkhbt .r5 .r6 .r5 (.lsl 16), .op2 .pkhbt .r4 .r4 .ip .id, .op2 .pkhtb .r9 .r9 .sl (.asr 16), .op2 .pkhtb .sl .r7 .r8 (.asr 16),
  .op2 .uadd16 .r9 .r9 .r5 .id, .op2 .uadd16 .sl .sl .r4 .id, .ldr .r4 .r2 256 .off, .ldr .r5 .r2 260 .off, .ldr .r6 .r2 264 .off,
  .ldr .fp .r2 268 .off, .op2 .uadd16 .r4 .r4 .r0 .id, .str .r4 .r2 256 .off]

/-- tc.s:3895-4014 -/
def toom_cook_4way_striding_asm_40 : List Ins := [
  .op2 .uadd16 .r5 .r5 .r3 .id, .str .r5 .r2 260 .off, .op2 .uadd16 .r6 .r6 .r9 .id, .str .r6 .r2 264 .off, .op2 .uadd16 .fp .fp .sl .id,
  .str .fp .r2 268 .off, .ldr .r4 .r1 196 .off, .ldr .r5 .r1 68 .off, .ldr .r6 .sp 964 .off, .ldr .r7 .sp 1092 .off,
  .ldr .r8 .sp 1220 .off, .ldr .r9 .sp 1348 .off, .ldr .sl .sp 1476 .off, .op2 .uadd16 .r5 .r5 .r8 .id, .op2 .usub16 .r9 .r9 .r8 .id,
  .op2 .usub16 .r7 .r7 .r6 .id, .op2 .usub16 .r8 .r8 .r4 .id, .op1 (.lsr 16) .r0 .sl, .op1 (.lsl 6) .r3 .sl,
  .op2 .pkhbt .r3 .r3 .r0 (.lsl 22), .op2 .usub16 .r8 .r8 .r3 .id, .op1 (.lsl 16) .r0 .r7, .op1 (.lsr 1) .r3 .r7,
  .op2 .pkhtb .r7 .r3 .r0 (.asr 17), .op2 .uadd16 .r6 .r6 .r7 .id, .op1 (.lsr 16) .r0 .r8, .op1 (.lsl 1) .r3 .r8,
  .op2 .pkhbt .r3 .r3 .r0 (.lsl 17), .op2 .uadd16 .r8 .r9 .r3 .id, .op1 (.lsr 16) .r0 .r6, .op1 (.lsl 6) .r3 .r6,
  .op2 .pkhbt .r3 .r3 .r0 (.lsl 22), .op2 .uadd16 .r3 .r6 .r3 .id, .op2 .usub16 .r5 .r5 .r3 .id, .op2 .usub16 .r6 .r6 .sl .id,
  .op2 .usub16 .r6 .r6 .r4 .id, .movi .r3 45, .op2 .smulbb .r0 .r6 .r3 .id, .op2 .smultb .r3 .r6 .r3 .id,
  .op2 .pkhbt .r3 .r0 .r3 (.lsl 16), .op2 .uadd16 .r5 .r5 .r3 .id, .op1 (.lsr 16) .r0 .r6, .op1 (.lsl 3) .r3 .r6,
  .op2 .pkhbt .r3 .r3 .r0 (.lsl 19), .op2 .usub16 .r8 .r8 .r3 .id, .movi .r3 43691, .op2 .smulbb .r0 .r8 .r3 .id,
  .op2 .smultb .r3 .r8 .r3 .id, .op2 .pkhbt .r3 .r0 .r3 (.lsl 16), .op1 (.lsl 16) .r0 .r3, .op1 (.lsr 3) .r3 .r3,
  .op2 .pkhtb .r8 .r3 .r0 (.asr 19), .op2 .uadd16 .r9 .r5 .r9 .id, .op1 (.lsr 16) .r0 .r7, .op1 (.lsl 4) .r3 .r7,
  .op2 .pkhbt .r3 .r3 .r0 (.lsl 20), .op2 .uadd16 .r5 .r5 .r3 .id, .movi .r3 36409, .op2 .smulbb .r0 .r5 .r3 .id,
  .op2 .smultb .r3 .r5 .r3 .id, .op2 .pkhbt .r3 .r0 .r3 (.lsl 16), .op1 (.lsl 16) .r0 .r3, .op1 (.lsr 1) .r3 .r3,
  .op2 .pkhtb .r5 .r3 .r0 (.asr 17), .op2 .usub16 .r6 .r6 .r8 .id, .op2 .uadd16 .r7 .r7 .r5 .id, .movi .r3 0,
  .op2 .usub16 .r7 .r3 .r7 .id, .movi .r3 30, .op2 .smulbb .r0 .r5 .r3 .id, .op2 .smultb .r3 .r5 .r3 .id,
  .op2 .pkhbt .r3 .r0 .r3 (.lsl 16), .op2 .usub16 .r9 .r3 .r9 .id, .movi .r3 61167, .op2 .smulbb .r0 .r9 .r3 .id,
  .op2 .smultb .r3 .r9 .r3 .id, .op2 .pkhbt .r3 .r0 .r3 (.lsl 16), .op1 (.lsl 16) .r0 .r3, .op1 (.lsr 2) .r3 .r3,
  .op2 .pkhtb .r9 .r3 .r0 (.asr 18), .op2 .usub16 .r5 .r5 .r9 .id, .op2 .pkhbt .r0 .sl .r9 (.lsl 16), .op2 .pkhbt .r3 .r8 .r7 (.lsl 16),
  .op2 .uadd16 .r0 .r0 .lr .id, .op2 .uadd16 .r3 .r3 .ip .id, .op2 .pkhtb .lr .r5 .r6 (.asr 16), .op2 .pkhtb .ip .ip .r4 (.asr 16),
  .op2 .pkhbt .r5 .r6 .r5 (.lsl 16), .op2 .pkhbt .r4 .r4 .ip .id, .op2 .pkhtb .r9 .r9 .sl (.asr 16), .op2 .pkhtb .sl .r7 .r8 (.asr 16),
  .op2 .uadd16 .r9 .r9 .r5 .id, .op2 .uadd16 .sl .sl .r4 .id, .ldr .r4 .r2 272 .off, .ldr .r5 .r2 276 .off, .ldr .r6 .r2 280 .off,
  .ldr .fp .r2 284 .off, .op2 .uadd16 .r4 .r4 .r0 .id, .str .r4 .r2 272 .off, .op2 .uadd16 .r5 .r5 .r3 .id, .str .r5 .r2 276 .off,
  .op2 .uadd16 .r6 .r6 .r9 .id, .str .r6 .r2 280 .off, .op2 .uadd16 .fp .fp .sl .id, .str .fp .r2 284 .off, .ldr .r4 .r1 200 .off,
  .ldr .r5 .r1 72 .off, .ldr .r6 .sp 968 .off, .ldr .r7 .sp 1096 .off, .ldr .r8 .sp 1224 .off, .ldr .r9 .sp 1352 .off,
  .ldr .sl .sp 1480 .off, .op2 .uadd16 .r5 .r5 .r8 .id, .op2 .usub16 .r9 .r9 .r8 .id, .op2 .usub16 .r7 .r7 .r6 .id,
  .op2 .usub16 .r8 .r8 .r4 .id, .op1 (.lsr 16) .r0 .sl, .op1 (.lsl 6) .r3 .sl, .op2 .pkhbt .r3 .r3 .r0 (.lsl 22),
  .op2 .usub16 .r8 .r8 .r3 .id]

/-- tc.s:4015-4134 -/
def toom_cook_4way_striding_asm_41 : List Ins := [
  .op1 (.lsl 16) .r0 .r7, .op1 (.lsr 1) .r3 .r7, .op2 .pkhtb .r7 .r3 .r0 (.asr 17), .op2 .uadd16 .r6 .r6 .r7 .id, .op1 (.lsr 16) .r0 .r8,
  .op1 (.lsl 1) .r3 .r8, .op2 .pkhbt .r3 .r3 .r0 (.lsl 17), .op2 .uadd16 .r8 .r9 .r3 .id, .op1 (.lsr 16) .r0 .r6, .op1 (.lsl 6) .r3 .r6,
  .op2 .pkhbt .r3 .r3 .r0 (.lsl 22), .op2 .uadd16 .r3 .r6 .r3 .id, .op2 .usub16 .r5 .r5 .r3 .id, .op2 .usub16 .r6 .r6 .sl .id,
  .op2 .usub16 .r6 .r6 .r4 .id, .movi .r3 45, .op2 .smulbb .r0 .r6 .r3 .id, .op2 .smultb .r3 .r6 .r3 .id,
  .op2 .pkhbt .r3 .r0 .r3 (.lsl 16), .op2 .uadd16 .r5 .r5 .r3 .id, .op1 (.lsr 16) .r0 .r6, .op1 (.lsl 3) .r3 .r6,
  .op2 .pkhbt .r3 .r3 .r0 (.lsl 19), .op2 .usub16 .r8 .r8 .r3 .id, .movi .r3 43691, .op2 .smulbb .r0 .r8 .r3 .id,
  .op2 .smultb .r3 .r8 .r3 .id, .op2 .pkhbt .r3 .r0 .r3 (.lsl 16), .op1 (.lsl 16) .r0 .r3, .op1 (.lsr 3) .r3 .r3,
  .op2 .pkhtb .r8 .r3 .r0 (.asr 19), .op2 .uadd16 .r9 .r5 .r9 .id, .op1 (.lsr 16) .r0 .r7, .op1 (.lsl 4) .r3 .r7,
  .op2 .pkhbt .r3 .r3 .r0 (.lsl 20), .op2 .uadd16 .r5 .r5 .r3 .id, .movi .r3 36409, .op2 .smulbb .r0 .r5 .r3 .id,
  .op2 .smultb .r3 .r5 .r3 .id, .op2 .pkhbt .r3 .r0 .r3 (.lsl 16), .op1 (.lsl 16) .r0 .r3, .op1 (.lsr 1) .r3 .r3,
  .op2 .pkhtb .r5 .r3 .r0 (.asr 17), .op2 .usub16 .r6 .r6 .r8 .id, .op2 .uadd16 .r7 .r7 .r5 .id, .movi .r3 0,
  .op2 .usub16 .r7 .r3 .r7 .id, .movi .r3 30, .op2 .smulbb .r0 .r5 .r3 .id, .op2 .smultb .r3 .r5 .r3 .id,
  .op2 .pkhbt .r3 .r0 .r3 (.lsl 16), .op2 .usub16 .r9 .r3 .r9 .id, .movi .r3 61167, .op2 .smulbb .r0 .r9 .r3 .id,
  .op2 .smultb .r3 .r9 .r3 .id, .op2 .pkhbt .r3 .r0 .r3 (.lsl 16), .op1 (.lsl 16) .r0 .r3, .op1 (.lsr 2) .r3 .r3,
  .op2 .pkhtb .r9 .r3 .r0 (.asr 18), .op2 .usub16 .r5 .r5 .r9 .id, .op2 .pkhbt .r0 .sl .r9 (.lsl 16), .op2 .pkhbt .r3 .r8 .r7 (.lsl 16),
  .op2 .uadd16 .r0 .r0 .lr .id, .op2 .uadd16 .r3 .r3 .ip .id, .op2 .pkhtb .lr .r5 .r6 (.asr 16), .op2 .pkhtb .ip .ip .r4 (.asr 16),
  .op2 .pkhbt .r5 .r6 .r5 (.lsl 16), .op2 .pkhbt .r4 .r4 .ip .id, .op2 .pkhtb .r9 .r9 .sl (.asr 16), .op2 .pkhtb .sl .r7 .r8 (.asr 16),
  .op2 .uadd16 .r9 .r9 .r5 .id, .op2 .uadd16 .sl .sl .r4 .id, .ldr .r4 .r2 288 .off, .ldr .r5 .r2 292 .off, .ldr .r6 .r2 296 .off,
  .ldr .fp .r2 300 .off, .op2 .uadd16 .r4 .r4 .r0 .id, .str .r4 .r2 288 .off, .op2 .uadd16 .r5 .r5 .r3 .id, .str .r5 .r2 292 .off,
  .op2 .uadd16 .r6 .r6 .r9 .id, .str .r6 .r2 296 .off, .op2 .uadd16 .fp .fp .sl .id, .str .fp .r2 300 .off, .ldr .r4 .r1 204 .off,
  .ldr .r5 .r1 76 .off, .ldr .r6 .sp 972 .off, .ldr .r7 .sp 1100 .off, .ldr .r8 .sp 1228 .off, .ldr .r9 .sp 1356 .off,
  .ldr .sl .sp 1484 .off, .op2 .uadd16 .r5 .r5 .r8 .id, .op2 .usub16 .r9 .r9 .r8 .id, .op2 .usub16 .r7 .r7 .r6 .id,
  .op2 .usub16 .r8 .r8 .r4 .id, .op1 (.lsr 16) .r0 .sl, .op1 (.lsl 6) .r3 .sl, .op2 .pkhbt .r3 .r3 .r0 (.lsl 22),
  .op2 .usub16 .r8 .r8 .r3 .id, .op1 (.lsl 16) .r0 .r7, .op1 (.lsr 1) .r3 .r7, .op2 .pkhtb .r7 .r3 .r0 (.asr 17),
  .op2 .uadd16 .r6 .r6 .r7 .id, .op1 (.lsr 16) .r0 .r8, .op1 (.lsl 1) .r3 .r8, .op2 .pkhbt .r3 .r3 .r0 (.lsl 17),
  .op2 .uadd16 .r8 .r9 .r3 .id, .op1 (.lsr 16) .r0 .r6, .op1 (.lsl 6) .r3 .r6, .op2 .pkhbt .r3 .r3 .r0 (.lsl 22),
  .op2 .uadd16 .r3 .r6 .r3 .id, .op2 .usub16 .r5 .r5 .r3 .id, .op2 .usub16 .r6 .r6 .sl .id, .op2 .usub16 .r6 .r6 .r4 .id, .movi .r3 45,
  .op2 .smulbb .r0 .r6 .r3 .id, .op2 .smultb .r3 .r6 .r3 .id, .op2 .pkhbt .r3 .r0 .r3 (.lsl 16), .op2 .uadd16 .r5 .r5 .r3 .id,
  .op1 (.lsr 16) .r0 .r6]

/-- tc.s:4135-4254 -/
def toom_cook_4way_striding_asm_42 : List Ins := [
  .op1 (.lsl 3) .r3 .r6, .op2 .pkhbt .r3 .r3 .r0 (.lsl 19), .op2 .usub16 .r8 .r8 .r3 .id, .movi .r3 43691, .op2 .smulbb .r0 .r8 .r3 .id,
  .op2 .smultb .r3 .r8 .r3 .id, .op2 .pkhbt .r3 .r0 .r3 (.lsl 16), .op1 (.lsl 16) .r0 .r3, .op1 (.lsr 3) .r3 .r3,
  .op2 .pkhtb .r8 .r3 .r0 (.asr 19), .op2 .uadd16 .r9 .r5 .r9 .id, .op1 (.lsr 16) .r0 .r7, .op1 (.lsl 4) .r3 .r7,
  .op2 .pkhbt .r3 .r3 .r0 (.lsl 20), .op2 .uadd16 .r5 .r5 .r3 .id, .movi .r3 36409, .op2 .smulbb .r0 .r5 .r3 .id,
  .op2 .smultb .r3 .r5 .r3 .id, .op2 .pkhbt .r3 .r0 .r3 (.lsl 16), .op1 (.lsl 16) .r0 .r3, .op1 (.lsr 1) .r3 .r3,
  .op2 .pkhtb .r5 .r3 .r0 (.asr 17), .op2 .usub16 .r6 .r6 .r8 .id, .op2 .uadd16 .r7 .r7 .r5 .id, .movi .r3 0,
  .op2 .usub16 .r7 .r3 .r7 .id, .movi .r3 30, .op2 .smulbb .r0 .r5 .r3 .id, .op2 .smultb .r3 .r5 .r3 .id,
  .op2 .pkhbt .r3 .r0 .r3 (.lsl 16), .op2 .usub16 .r9 .r3 .r9 .id, .movi .r3 61167, .op2 .smulbb .r0 .r9 .r3 .id,
  .op2 .smultb .r3 .r9 .r3 .id, .op2 .pkhbt .r3 .r0 .r3 (.lsl 16), .op1 (.lsl 16) .r0 .r3, .op1 (.lsr 2) .r3 .r3,
  .op2 .pkhtb .r9 .r3 .r0 (.asr 18), .op2 .usub16 .r5 .r5 .r9 .id, .op2 .pkhbt .r0 .sl .r9 (.lsl 16), .op2 .pkhbt .r3 .r8 .r7 (.lsl 16),
  .op2 .uadd16 .r0 .r0 .lr .id, .op2 .uadd16 .r3 .r3 .ip .id, .op2 .pkhtb .lr .r5 .r6 (.asr 16), .op2 .pkhtb .ip .ip .r4 (.asr 16),
  .op2 .pkhbt .r5 .r6 .r5 (.lsl 16), .op2 .pkhbt .r4 .r4 .ip .id, .op2 .pkhtb .r9 .r9 .sl (.asr 16), .op2 .pkhtb .sl .r7 .r8 (.asr 16),
  .op2 .uadd16 .r9 .r9 .r5 .id, .op2 .uadd16 .sl .sl .r4 .id, .ldr .r4 .r2 304 .off, .ldr .r5 .r2 308 .off, .ldr .r6 .r2 312 .off,
  .ldr .fp .r2 316 .off, .op2 .uadd16 .r4 .r4 .r0 .id, .str .r4 .r2 304 .off, .op2 .uadd16 .r5 .r5 .r3 .id, .str .r5 .r2 308 .off,
  .op2 .uadd16 .r6 .r6 .r9 .id, .str .r6 .r2 312 .off, .op2 .uadd16 .fp .fp .sl .id, .str .fp .r2 316 .off, .ldr .r4 .r1 208 .off,
  .ldr .r5 .r1 80 .off, .ldr .r6 .sp 976 .off, .ldr .r7 .sp 1104 .off, .ldr .r8 .sp 1232 .off, .ldr .r9 .sp 1360 .off,
  .ldr .sl .sp 1488 .off, .op2 .uadd16 .r5 .r5 .r8 .id, .op2 .usub16 .r9 .r9 .r8 .id, .op2 .usub16 .r7 .r7 .r6 .id,
  .op2 .usub16 .r8 .r8 .r4 .id, .op1 (.lsr 16) .r0 .sl, .op1 (.lsl 6) .r3 .sl, .op2 .pkhbt .r3 .r3 .r0 (.lsl 22),
  .op2 .usub16 .r8 .r8 .r3 .id, .op1 (.lsl 16) .r0 .r7, .op1 (.lsr 1) .r3 .r7, .op2 .pkhtb .r7 .r3 .r0 (.asr 17),
  .op2 .uadd16 .r6 .r6 .r7 .id, .op1 (.lsr 16) .r0 .r8, .op1 (.lsl 1) .r3 .r8, .op2 .pkhbt .r3 .r3 .r0 (.lsl 17),
  .op2 .uadd16 .r8 .r9 .r3 .id, .op1 (.lsr 16) .r0 .r6, .op1 (.lsl 6) .r3 .r6, .op2 .pkhbt .r3 .r3 .r0 (.lsl 22),
  .op2 .uadd16 .r3 .r6 .r3 .id, .op2 .usub16 .r5 .r5 .r3 .id, .op2 .usub16 .r6 .r6 .sl .id, .op2 .usub16 .r6 .r6 .r4 .id, .movi .r3 45,
  .op2 .smulbb .r0 .r6 .r3 .id, .op2 .smultb .r3 .r6 .r3 .id, .op2 .pkhbt .r3 .r0 .r3 (.lsl 16), .op2 .uadd16 .r5 .r5 .r3 .id,
  .op1 (.lsr 16) .r0 .r6, .op1 (.lsl 3) .r3 .r6, .op2 .pkhbt .r3 .r3 .r0 (.lsl 19), .op2 .usub16 .r8 .r8 .r3 .id, .movi .r3 43691,
  .op2 .smulbb .r0 .r8 .r3 .id, .op2 .smultb .r3 .r8 .r3 .id, .op2 .pkhbt .r3 .r0 .r3 (.lsl 16), .op1 (.lsl 16) .r0 .r3,
  .op1 (.lsr 3) .r3 .r3, .op2 .pkhtb .r8 .r3 .r0 (.asr 19), .op2 .uadd16 .r9 .r5 .r9 .id, .op1 (.lsr 16) .r0 .r7, .op1 (.lsl 4) .r3 .r7,
  .op2 .pkhbt .r3 .r3 .r0 (.lsl 20), .op2 .uadd16 .r5 .r5 .r3 .id, .movi .r3 36409, .op2 .smulbb .r0 .r5 .r3 .id,
  .op2 .smultb .r3 .r5 .r3 .id, .op2 .pkhbt .r3 .r0 .r3 (.lsl 16), .op1 (.lsl 16) .r0 .r3, .op1 (.lsr 1) .r3 .r3]

/-- tc.s:4255-4374 -/
def toom_cook_4way_striding_asm_43 : List Ins := [
  .op2 .pkhtb .r5 .r3 .r0 (.asr 17), .op2 .usub16 .r6 .r6 .r8 .id, .op2 .uadd16 .r7 .r7 .r5 .id, .movi .r3 0,
  .op2 .usub16 .r7 .r3 .r7 .id, .movi .r3 30, .op2 .smulbb .r0 .r5 .r3 .id, .op2 .smultb .r3 .r5 .r3 .id,
  .op2 .pkhbt .r3 .r0 .r3 (.lsl 16), .op2 .usub16 .r9 .r3 .r9 .id, .movi .r3 61167, .op2 .smulbb .r0 .r9 .r3 .id,
  .op2 .smultb .r3 .r9 .r3 .id, .op2 .pkhbt .r3 .r0 .r3 (.lsl 16), .op1 (.lsl 16) .r0 .r3, .op1 (.lsr 2) .r3 .r3,
  .op2 .pkhtb .r9 .r3 .r0 (.asr 18), .op2 .usub16 .r5 .r5 .r9 .id, .op2 .pkhbt .r0 .sl .r9 (.lsl 16), .op2 .pkhbt .r3 .r8 .r7 (.lsl 16),
  .op2 .uadd16 .r0 .r0 .lr .id, .op2 .uadd16 .r3 .r3 .ip .id, .op2 .pkhtb .lr .r5 .r6 (.asr 16), .op2 .pkhtb .ip .ip .r4 (.asr 16),
  .op2 .pkhbt .r5 .r6 .r5 (.lsl 16), .op2 .pkhbt .r4 .r4 .ip .id, .op2 .pkhtb .r9 .r9 .sl (.asr 16), .op2 .pkhtb .sl .r7 .r8 (.asr 16),
  .op2 .uadd16 .r9 .r9 .r5 .id, .op2 .uadd16 .sl .sl .r4 .id, .ldr .r4 .r2 320 .off, .ldr .r5 .r2 324 .off, .ldr .r6 .r2 328 .off,
  .ldr .fp .r2 332 .off, .op2 .uadd16 .r4 .r4 .r0 .id, .str .r4 .r2 320 .off, .op2 .uadd16 .r5 .r5 .r3 .id, .str .r5 .r2 324 .off,
  .op2 .uadd16 .r6 .r6 .r9 .id, .str .r6 .r2 328 .off, .op2 .uadd16 .fp .fp .sl .id, .str .fp .r2 332 .off, .ldr .r4 .r1 212 .off,
  .ldr .r5 .r1 84 .off, .ldr .r6 .sp 980 .off, .ldr .r7 .sp 1108 .off, .ldr .r8 .sp 1236 .off, .ldr .r9 .sp 1364 .off,
  .ldr .sl .sp 1492 .off, .op2 .uadd16 .r5 .r5 .r8 .id, .op2 .usub16 .r9 .r9 .r8 .id, .op2 .usub16 .r7 .r7 .r6 .id,
  .op2 .usub16 .r8 .r8 .r4 .id, .op1 (.lsr 16) .r0 .sl, .op1 (.lsl 6) .r3 .sl, .op2 .pkhbt .r3 .r3 .r0 (.lsl 22),
  .op2 .usub16 .r8 .r8 .r3 .id, .op1 (.lsl 16) .r0 .r7, .op1 (.lsr 1) .r3 .r7, .op2 .pkhtb .r7 .r3 .r0 (.asr 17),
  .op2 .uadd16 .r6 .r6 .r7 .id, .op1 (.lsr 16) .r0 .r8, .op1 (.lsl 1) .r3 .r8, .op2 .pkhbt .r3 .r3 .r0 (.lsl 17),
  .op2 .uadd16 .r8 .r9 .r3 .id, .op1 (.lsr 16) .r0 .r6, .op1 (.lsl 6) .r3 .r6, .op2 .pkhbt .r3 .r3 .r0 (.lsl 22),
  .op2 .uadd16 .r3 .r6 .r3 .id, .op2 .usub16 .r5 .r5 .r3 .id, .op2 .usub16 .r6 .r6 .sl .id, .op2 .usub16 .r6 .r6 .r4 .id, .movi .r3 45,
  .op2 .smulbb .r0 .r6 .r3 .id, .op2 .smultb .r3 .r6 .r3 .id, .op2 .pkhbt .r3 .r0 .r3 (.lsl 16), .op2 .uadd16 .r5 .r5 .r3 .id,
  .op1 (.lsr 16) .r0 .r6, .op1 (.lsl 3) .r3 .r6, .op2 .pkhbt .r3 .r3 .r0 (.lsl 19), .op2 .usub16 .r8 .r8 .r3 .id, .movi .r3 43691,
  .op2 .smulbb .r0 .r8 .r3 .id, .op2 .smultb .r3 .r8 .r3 .id, .op2 .pkhbt .r3 .r0 .r3 (.lsl 16), .op1 (.lsl 16) .r0 .r3,
  .op1 (.lsr 3) .r3 .r3, .op2 .pkhtb .r8 .r3 .r0 (.asr 19), .op2 .uadd16 .r9 .r5 .r9 .id, .op1 (.lsr 16) .r0 .r7, .op1 (.lsl 4) .r3 .r7,
  .op2 .pkhbt .r3 .r3 .r0 (.lsl 20), .op2 .uadd16 .r5 .r5 .r3 .id, .movi .r3 36409, .op2 .smulbb .r0 .r5 .r3 .id,
  .op2 .smultb .r3 .r5 .r3 .id, .op2 .pkhbt .r3 .r0 .r3 (.lsl 16), .op1 (.lsl 16) .r0 .r3, .op1 (.lsr 1) .r3 .r3,
  .op2 .pkhtb .r5 .r3 .r0 (.asr 17), .op2 .usub16 .r6 .r6 .r8 .id, .op2 .uadd16 .r7 .r7 .r5 .id, .movi .r3 0,
  .op2 .usub16 .r7 .r3 .r7 .id, .movi .r3 30, .op2 .smulbb .r0 .r5 .r3 .id, .op2 .smultb .r3 .r5 .r3 .id,
  .op2 .pkhbt .r3 .r0 .r3 (.lsl 16), .op2 .usub16 .r9 .r3 .r9 .id, .movi .r3 61167, .op2 .smulbb .r0 .r9 .r3 .id,
  .op2 .smultb .r3 .r9 .r3 .id, .op2 .pkhbt .r3 .r0 .r3 (.lsl 16), .op1 (.lsl 16) .r0 .r3, .op1 (.lsr 2) .r3 .r3,
  .op2 .pkhtb .r9 .r3 .r0 (.asr 18), .op2 .usub16 .r5 .r5 .r9 .id, .op2 .pkhbt .r0 .sl .r9 (.lsl 16), .op2 .pkhbt .r3 .r8 .r7 (.lsl 16),
  .op2 .uadd16 .r0 .r0 .lr .id]

/-- tc.s:4375-4494 -/
def toom_cook_4way_striding_asm_44 : List Ins := [
  .op2 .uadd16 .r3 .r3 .ip .id, .op2 .pkhtb .lr .r5 .r6 (.asr 16), .op2 .pkhtb .ip .ip .r4 (.asr 16), .op2 .pkhbt .r5 .r6 .r5 (.lsl 16),
  .op2 .pkhbt .r4 .r4 .ip .id, .op2 .pkhtb .r9 .r9 .sl (.asr 16), .op2 .pkhtb .sl .r7 .r8 (.asr 16), .op2 .uadd16 .r9 .r9 .r5 .id,
  .op2 .uadd16 .sl .sl .r4 .id, .ldr .r4 .r2 336 .off, .ldr .r5 .r2 340 .off, .ldr .r6 .r2 344 .off, .ldr .fp .r2 348 .off,
  .op2 .uadd16 .r4 .r4 .r0 .id, .str .r4 .r2 336 .off, .op2 .uadd16 .r5 .r5 .r3 .id, .str .r5 .r2 340 .off, .op2 .uadd16 .r6 .r6 .r9 .id,
  .str .r6 .r2 344 .off, .op2 .uadd16 .fp .fp .sl .id, .str .fp .r2 348 .off, .ldr .r4 .r1 216 .off, .ldr .r5 .r1 88 .off,
  .ldr .r6 .sp 984 .off, .ldr .r7 .sp 1112 .off, .ldr .r8 .sp 1240 .off, .ldr .r9 .sp 1368 .off, .ldr .sl .sp 1496 .off,
  .op2 .uadd16 .r5 .r5 .r8 .id, .op2 .usub16 .r9 .r9 .r8 .id, .op2 .usub16 .r7 .r7 .r6 .id, .op2 .usub16 .r8 .r8 .r4 .id,
  .op1 (.lsr 16) .r0 .sl, .op1 (.lsl 6) .r3 .sl, .op2 .pkhbt .r3 .r3 .r0 (.lsl 22), .op2 .usub16 .r8 .r8 .r3 .id, .op1 (.lsl 16) .r0 .r7,
  .op1 (.lsr 1) .r3 .r7, .op2 .pkhtb .r7 .r3 .r0 (.asr 17), .op2 .uadd16 .r6 .r6 .r7 .id, .op1 (.lsr 16) .r0 .r8, .op1 (.lsl 1) .r3 .r8,
  .op2 .pkhbt .r3 .r3 .r0 (.lsl 17), .op2 .uadd16 .r8 .r9 .r3 .id, .op1 (.lsr 16) .r0 .r6, .op1 (.lsl 6) .r3 .r6,
  .op2 .pkhbt .r3 .r3 .r0 (.lsl 22), .op2 .uadd16 .r3 .r6 .r3 .id, .op2 .usub16 .r5 .r5 .r3 .id, .op2 .usub16 .r6 .r6 .sl .id,
  .op2 .usub16 .r6 .r6 .r4 .id, .movi .r3 45, .op2 .smulbb .r0 .r6 .r3 .id, .op2 .smultb .r3 .r6 .r3 .id,
  .op2 .pkhbt .r3 .r0 .r3 (.lsl 16), .op2 .uadd16 .r5 .r5 .r3 .id, .op1 (.lsr 16) .r0 .r6, .op1 (.lsl 3) .r3 .r6,
  .op2 .pkhbt .r3 .r3 .r0 (.lsl 19), .op2 .usub16 .r8 .r8 .r3 .id, .movi .r3 43691, .op2 .smulbb .r0 .r8 .r3 .id,
  .op2 .smultb .r3 .r8 .r3 .id, .op2 .pkhbt .r3 .r0 .r3 (.lsl 16), .op1 (.lsl 16) .r0 .r3, .op1 (.lsr 3) .r3 .r3,
  .op2 .pkhtb .r8 .r3 .r0 (.asr 19), .op2 .uadd16 .r9 .r5 .r9 .id, .op1 (.lsr 16) .r0 .r7, .op1 (.lsl 4) .r3 .r7,
  .op2 .pkhbt .r3 .r3 .r0 (.lsl 20), .op2 .uadd16 .r5 .r5 .r3 .id, .movi .r3 36409, .op2 .smulbb .r0 .r5 .r3 .id,
  .op2 .smultb .r3 .r5 .r3 .id, .op2 .pkhbt .r3 .r0 .r3 (.lsl 16), .op1 (.lsl 16) .r0 .r3, .op1 (.lsr 1) .r3 .r3,
  .op2 .pkhtb .r5 .r3 .r0 (.asr 17), .op2 .usub16 .r6 .r6 .r8 .id, .op2 .uadd16 .r7 .r7 .r5 .id, .movi .r3 0,
  .op2 .usub16 .r7 .r3 .r7 .id, .movi .r3 30, .op2 .smulbb .r0 .r5 .r3 .id, .op2 .smultb .r3 .r5 .r3 .id,
  .op2 .pkhbt .r3 .r0 .r3 (.lsl 16), .op2 .usub16 .r9 .r3 .r9 .id, .movi .r3 61167, .op2 .smulbb .r0 .r9 .r3 .id,
  .op2 .smultb .r3 .r9 .r3 .id, .op2 .pkhbt .r3 .r0 .r3 (.lsl 16), .op1 (.lsl 16) .r0 .r3, .op1 (.lsr 2) .r3 .r3,
  .op2 .pkhtb .r9 .r3 .r0 (.asr 18), .op2 .usub16 .r5 .r5 .r9 .id, .op2 .pkhbt .r0 .sl .r9 (.lsl 16), .op2 .pkhbt .r3 .r8 .r7 (.lsl 16),
  .op2 .uadd16 .r0 .r0 .lr .id, .op2 .uadd16 .r3 .r3 .ip .id, .op2 .pkhtb .lr .r5 .r6 (.asr 16), .op2 .pkhtb .ip .ip .r4 (.asr 16),
  .op2 .pkhbt .r5 .r6 .r5 (.lsl 16), .op2 .pkhbt .r4 .r4 .ip .id, .op2 .pkhtb .r9 .r9 .sl (.asr 16), .op2 .pkhtb .sl .r7 .r8 (.asr 16),
  .op2 .uadd16 .r9 .r9 .r5 .id, .op2 .uadd16 .sl .sl .r4 .id, .ldr .r4 .r2 352 .off, .ldr .r5 .r2 356 .off, .ldr .r6 .r2 360 .off,
  .ldr .fp .r2 364 .off, .op2 .uadd16 .r4 .r4 .r0 .id, .str .r4 .r2 352 .off, .op2 .uadd16 .r5 .r5 .r3 .id, .str .r5 .r2 356 .off,
  .op2 .uadd16 .r6 .r6 .r9 .id, .str .r6 .r2 360 .off, .op2 .uadd16 .fp .fp .sl .id, .str .fp .r2 364 .off]

/-- tc.s:4495-4614 -/
def toom_cook_4way_striding_asm_45 : List Ins := [
  .ldr .r4 .r1 220 .off, .ldr .r5 .r1 92 .off, .ldr .r6 .sp 988 .off, .ldr .r7 .sp 1116 .off, .ldr .r8 .sp 1244 .off,
  .ldr .r9 .sp 1372 .off, .ldr .sl .sp 1500 .off, .op2 .uadd16 .r5 .r5 .r8 .id, .op2 .usub16 .r9 .r9 .r8 .id,
  .op2 .usub16 .r7 .r7 .r6 .id, .op2 .usub16 .r8 .r8 .r4 .id, .op1 (.lsr 16) .r0 .sl, .op1 (.lsl 6) .r3 .sl,
  .op2 .pkhbt .r3 .r3 .r0 (.lsl 22), .op2 .usub16 .r8 .r8 .r3 .id, .op1 (.lsl 16) .r0 .r7, .op1 (.lsr 1) .r3 .r7,
  .op2 .pkhtb .r7 .r3 .r0 (.asr 17), .op2 .uadd16 .r6 .r6 .r7 .id, .op1 (.lsr 16) .r0 .r8, .op1 (.lsl 1) .r3 .r8,
  .op2 .pkhbt .r3 .r3 .r0 (.lsl 17), .op2 .uadd16 .r8 .r9 .r3 .id, .op1 (.lsr 16) .r0 .r6, .op1 (.lsl 6) .r3 .r6,
  .op2 .pkhbt .r3 .r3 .r0 (.lsl 22), .op2 .uadd16 .r3 .r6 .r3 .id, .op2 .usub16 .r5 .r5 .r3 .id, .op2 .usub16 .r6 .r6 .sl .id,
  .op2 .usub16 .r6 .r6 .r4 .id, .movi .r3 45, .op2 .smulbb .r0 .r6 .r3 .id, .op2 .smultb .r3 .r6 .r3 .id,
  .op2 .pkhbt .r3 .r0 .r3 (.lsl 16), .op2 .uadd16 .r5 .r5 .r3 .id, .op1 (.lsr 16) .r0 .r6, .op1 (.lsl 3) .r3 .r6,
  .op2 .pkhbt .r3 .r3 .r0 (.lsl 19), .op2 .usub16 .r8 .r8 .r3 .id, .movi .r3 43691, .op2 .smulbb .r0 .r8 .r3 .id,
  .op2 .smultb .r3 .r8 .r3 .id, .op2 .pkhbt .r3 .r0 .r3 (.lsl 16), .op1 (.lsl 16) .r0 .r3, .op1 (.lsr 3) .r3 .r3,
  .op2 .pkhtb .r8 .r3 .r0 (.asr 19), .op2 .uadd16 .r9 .r5 .r9 .id, .op1 (.lsr 16) .r0 .r7, .op1 (.lsl 4) .r3 .r7,
  .op2 .pkhbt .r3 .r3 .r0 (.lsl 20), .op2 .uadd16 .r5 .r5 .r3 .id, .movi .r3 36409, .op2 .smulbb .r0 .r5 .r3 .id,
  .op2 .smultb .r3 .r5 .r3 .id, .op2 .pkhbt .r3 .r0 .r3 (.lsl 16), .op1 (.lsl 16) .r0 .r3, .op1 (.lsr 1) .r3 .r3,
  .op2 .pkhtb .r5 .r3 .r0 (.asr 17), .op2 .usub16 .r6 .r6 .r8 .id, .op2 .uadd16 .r7 .r7 .r5 .id, .movi .r3 0,
  .op2 .usub16 .r7 .r3 .r7 .id, .movi .r3 30, .op2 .smulbb .r0 .r5 .r3 .id, .op2 .smultb .r3 .r5 .r3 .id,
  .op2 .pkhbt .r3 .r0 .r3 (.lsl 16), .op2 .usub16 .r9 .r3 .r9 .id, .movi .r3 61167, .op2 .smulbb .r0 .r9 .r3 .id,
  .op2 .smultb .r3 .r9 .r3 .id, .op2 .pkhbt .r3 .r0 .r3 (.lsl 16), .op1 (.lsl 16) .r0 .r3, .op1 (.lsr 2) .r3 .r3,
  .op2 .pkhtb .r9 .r3 .r0 (.asr 18), .op2 .usub16 .r5 .r5 .r9 .id, .op2 .pkhbt .r0 .sl .r9 (.lsl 16), .op2 .pkhbt .r3 .r8 .r7 (.lsl 16),
  .op2 .uadd16 .r0 .r0 .lr .id, .op2 .uadd16 .r3 .r3 .ip .id, .op2 .pkhtb .lr .r5 .r6 (.asr 16), .op2 .pkhtb .ip .ip .r4 (.asr 16),
  .op2 .pkhbt .r5 .r6 .r5 (.lsl 16), .op2 .pkhbt .r4 .r4 .ip .id, .op2 .pkhtb .r9 .r9 .sl (.asr 16), .op2 .pkhtb .sl .r7 .r8 (.asr 16),
  .op2 .uadd16 .r9 .r9 .r5 .id, .op2 .uadd16 .sl .sl .r4 .id, .ldr .r4 .r2 368 .off, .ldr .r5 .r2 372 .off, .ldr .r6 .r2 376 .off,
  .ldr .fp .r2 380 .off, .op2 .uadd16 .r4 .r4 .r0 .id, .str .r4 .r2 368 .off, .op2 .uadd16 .r5 .r5 .r3 .id, .str .r5 .r2 372 .off,
  .op2 .uadd16 .r6 .r6 .r9 .id, .str .r6 .r2 376 .off, .op2 .uadd16 .fp .fp .sl .id, .str .fp .r2 380 .off, .ldr .r4 .r1 224 .off,
  .ldr .r5 .r1 96 .off, .ldr .r6 .sp 992 .off, .ldr .r7 .sp 1120 .off, .ldr .r8 .sp 1248 .off, .ldr .r9 .sp 1376 .off,
  .ldr .sl .sp 1504 .off, .op2 .uadd16 .r5 .r5 .r8 .id, .op2 .usub16 .r9 .r9 .r8 .id, .op2 .usub16 .r7 .r7 .r6 .id,
  .op2 .usub16 .r8 .r8 .r4 .id, .op1 (.lsr 16) .r0 .sl, .op1 (.lsl 6) .r3 .sl, .op2 .pkhbt .r3 .r3 .r0 (.lsl 22),
  .op2 .usub16 .r8 .r8 .r3 .id, .op1 (.lsl 16) .r0 .r7, .op1 (.lsr 1) .r3 .r7, .op2 .pkhtb .r7 .r3 .r0 (.asr 17),
  .op2 .uadd16 .r6 .r6 .r7 .id, .op1 (.lsr 16) .r0 .r8, .op1 (.lsl 1) .r3 .r8]

/-- tc.s:4615-4734 -/
def toom_cook_4way_striding_asm_46 : List Ins := [
  .op2 .pkhbt .r3 .r3 .r0 (.lsl 17), .op2 .uadd16 .r8 .r9 .r3 .id, .op1 (.lsr 16) .r0 .r6, .op1 (.lsl 6) .r3 .r6,
  .op2 .pkhbt .r3 .r3 .r0 (.lsl 22), .op2 .uadd16 .r3 .r6 .r3 .id, .op2 .usub16 .r5 .r5 .r3 .id, .op2 .usub16 .r6 .r6 .sl .id,
  .op2 .usub16 .r6 .r6 .r4 .id, .movi .r3 45, .op2 .smulbb .r0 .r6 .r3 .id, .op2 .smultb .r3 .r6 .r3 .id,
  .op2 .pkhbt .r3 .r0 .r3 (.lsl 16), .op2 .uadd16 .r5 .r5 .r3 .id, .op1 (.lsr 16) .r0 .r6, .op1 (.lsl 3) .r3 .r6,
  .op2 .pkhbt .r3 .r3 .r0 (.lsl 19), .op2 .usub16 .r8 .r8 .r3 .id, .movi .r3 43691, .op2 .smulbb .r0 .r8 .r3 .id,
  .op2 .smultb .r3 .r8 .r3 .id, .op2 .pkhbt .r3 .r0 .r3 (.lsl 16), .op1 (.lsl 16) .r0 .r3, .op1 (.lsr 3) .r3 .r3,
  .op2 .pkhtb .r8 .r3 .r0 (.asr 19), .op2 .uadd16 .r9 .r5 .r9 .id, .op1 (.lsr 16) .r0 .r7, .op1 (.lsl 4) .r3 .r7,
  .op2 .pkhbt .r3 .r3 .r0 (.lsl 20), .op2 .uadd16 .r5 .r5 .r3 .id, .movi .r3 36409, .op2 .smulbb .r0 .r5 .r3 .id,
  .op2 .smultb .r3 .r5 .r3 .id, .op2 .pkhbt .r3 .r0 .r3 (.lsl 16), .op1 (.lsl 16) .r0 .r3, .op1 (.lsr 1) .r3 .r3,
  .op2 .pkhtb .r5 .r3 .r0 (.asr 17), .op2 .usub16 .r6 .r6 .r8 .id, .op2 .uadd16 .r7 .r7 .r5 .id, .movi .r3 0,
  .op2 .usub16 .r7 .r3 .r7 .id, .movi .r3 30, .op2 .smulbb .r0 .r5 .r3 .id, .op2 .smultb .r3 .r5 .r3 .id,
  .op2 .pkhbt .r3 .r0 .r3 (.lsl 16), .op2 .usub16 .r9 .r3 .r9 .id, .movi .r3 61167, .op2 .smulbb .r0 .r9 .r3 .id,
  .op2 .smultb .r3 .r9 .r3 .id, .op2 .pkhbt .r3 .r0 .r3 (.lsl 16), .op1 (.lsl 16) .r0 .r3, .op1 (.lsr 2) .r3 .r3,
  .op2 .pkhtb .r9 .r3 .r0 (.asr 18), .op2 .usub16 .r5 .r5 .r9 .id, .op2 .pkhbt .r0 .sl .r9 (.lsl 16), .op2 .pkhbt .r3 .r8 .r7 (.lsl 16),
  .op2 .uadd16 .r0 .r0 .lr .id, .op2 .uadd16 .r3 .r3 .ip .id, .op2 .pkhtb .lr .r5 .r6 (.asr 16), .op2 .pkhtb .ip .ip .r4 (.asr 16),
  .op2 .pkhbt .r5 .r6 .r5 (.lsl 16), .op2 .pkhbt .r4 .r4 .ip .id, .op2 .pkhtb .r9 .r9 .sl (.asr 16), .op2 .pkhtb .sl .r7 .r8 (.asr 16),
  .op2 .uadd16 .r9 .r9 .r5 .id, .op2 .uadd16 .sl .sl .r4 .id, .ldr .r4 .r2 384 .off, .ldr .r5 .r2 388 .off, .ldr .r6 .r2 392 .off,
  .ldr .fp .r2 396 .off, .op2 .uadd16 .r4 .r4 .r0 .id, .str .r4 .r2 384 .off, .op2 .uadd16 .r5 .r5 .r3 .id, .str .r5 .r2 388 .off,
  .op2 .uadd16 .r6 .r6 .r9 .id, .str .r6 .r2 392 .off, .op2 .uadd16 .fp .fp .sl .id, .str .fp .r2 396 .off, .ldr .r4 .r1 228 .off,
  .ldr .r5 .r1 100 .off, .ldr .r6 .sp 996 .off, .ldr .r7 .sp 1124 .off, .ldr .r8 .sp 1252 .off, .ldr .r9 .sp 1380 .off,
  .ldr .sl .sp 1508 .off, .op2 .uadd16 .r5 .r5 .r8 .id, .op2 .usub16 .r9 .r9 .r8 .id, .op2 .usub16 .r7 .r7 .r6 .id,
  .op2 .usub16 .r8 .r8 .r4 .id, .op1 (.lsr 16) .r0 .sl, .op1 (.lsl 6) .r3 .sl, .op2 .pkhbt .r3 .r3 .r0 (.lsl 22),
  .op2 .usub16 .r8 .r8 .r3 .id, .op1 (.lsl 16) .r0 .r7, .op1 (.lsr 1) .r3 .r7, .op2 .pkhtb .r7 .r3 .r0 (.asr 17),
  .op2 .uadd16 .r6 .r6 .r7 .id, .op1 (.lsr 16) .r0 .r8, .op1 (.lsl 1) .r3 .r8, .op2 .pkhbt .r3 .r3 .r0 (.lsl 17),
  .op2 .uadd16 .r8 .r9 .r3 .id, .op1 (.lsr 16) .r0 .r6, .op1 (.lsl 6) .r3 .r6, .op2 .pkhbt .r3 .r3 .r0 (.lsl 22),
  .op2 .uadd16 .r3 .r6 .r3 .id, .op2 .usub16 .r5 .r5 .r3 .id, .op2 .usub16 .r6 .r6 .sl .id, .op2 .usub16 .r6 .r6 .r4 .id, .movi .r3 45,
  .op2 .smulbb .r0 .r6 .r3 .id, .op2 .smultb .r3 .r6 .r3 .id, .op2 .pkhbt .r3 .r0 .r3 (.lsl 16), .op2 .uadd16 .r5 .r5 .r3 .id,
  .op1 (.lsr 16) .r0 .r6, .op1 (.lsl 3) .r3 .r6, .op2 .pkhbt .r3 .r3 .r0 (.lsl 19), .op2 .usub16 .r8 .r8 .r3 .id, .movi .r3 43691,
  .op2 .smulbb .r0 .r8 .r3 .id, .op2 .smultb .r3 .r8 .r3 .id]

/-- tc.s:4735-4854 -/
def toom_cook_4way_striding_asm_47 : List Ins := [
  .op2 .pkhbt .r3 .r0 .r3 (.lsl 16), .op1 (.lsl 16) .r0 .r3, .op1 (.lsr 3) .r3 .r3, .op2 .pkhtb .r8 .r3 .r0 (.asr 19),
  .op2 .uadd16 .r9 .r5 .r9 .id, .op1 (.lsr 16) .r0 .r7, .op1 (.lsl 4) .r3 .r7, .op2 .pkhbt .r3 .r3 .r0 (.lsl 20),
  .op2 .uadd16 .r5 .r5 .r3 .id, .movi .r3 36409, .op2 .smulbb .r0 .r5 .r3 .id, .op2 .smultb .r3 .r5 .r3 .id,
  .op2 .pkhbt .r3 .r0 .r3 (.lsl 16), .op1 (.lsl 16) .r0 .r3, .op1 (.lsr 1) .r3 .r3, .op2 .pkhtb .r5 .r3 .r0 (.asr 17),
  .op2 .usub16 .r6 .r6 .r8 .id, .op2 .uadd16 .r7 .r7 .r5 .id, .movi .r3 0, .op2 .usub16 .r7 .r3 .r7 .id, .movi .r3 30,
  .op2 .smulbb .r0 .r5 .r3 .id, .op2 .smultb .r3 .r5 .r3 .id, .op2 .pkhbt .r3 .r0 .r3 (.lsl 16), .op2 .usub16 .r9 .r3 .r9 .id,
  .movi .r3 61167, .op2 .smulbb .r0 .r9 .r3 .id, .op2 .smultb .r3 .r9 .r3 .id, .op2 .pkhbt .r3 .r0 .r3 (.lsl 16), .op1 (.lsl 16) .r0 .r3,
  .op1 (.lsr 2) .r3 .r3, .op2 .pkhtb .r9 .r3 .r0 (.asr 18), .op2 .usub16 .r5 .r5 .r9 .id, .op2 .pkhbt .r0 .sl .r9 (.lsl 16),
  .op2 .pkhbt .r3 .r8 .r7 (.lsl 16), .op2 .uadd16 .r0 .r0 .lr .id, .op2 .uadd16 .r3 .r3 .ip .id, .op2 .pkhtb .lr .r5 .r6 (.asr 16),
  .op2 .pkhtb .ip .ip .r4 (.asr 16), .op2 .pkhbt .r5 .r6 .r5 (.lsl 16), .op2 .pkhbt .r4 .r4 .ip .id, .op2 .pkhtb .r9 .r9 .sl (.asr 16),
  .op2 .pkhtb .sl .r7 .r8 (.asr 16), .op2 .uadd16 .r9 .r9 .r5 .id, .op2 .uadd16 .sl .sl .r4 .id, .ldr .r4 .r2 400 .off,
  .ldr .r5 .r2 404 .off, .ldr .r6 .r2 408 .off, .ldr .fp .r2 412 .off, .op2 .uadd16 .r4 .r4 .r0 .id, .str .r4 .r2 400 .off,
  .op2 .uadd16 .r5 .r5 .r3 .id, .str .r5 .r2 404 .off, .op2 .uadd16 .r6 .r6 .r9 .id, .str .r6 .r2 408 .off, .op2 .uadd16 .fp .fp .sl .id,
  .str .fp .r2 412 .off, .ldr .r4 .r1 232 .off, .ldr .r5 .r1 104 .off, .ldr .r6 .sp 1000 .off, .ldr .r7 .sp 1128 .off,
  .ldr .r8 .sp 1256 .off, .ldr .r9 .sp 1384 .off, .ldr .sl .sp 1512 .off, .op2 .uadd16 .r5 .r5 .r8 .id, .op2 .usub16 .r9 .r9 .r8 .id,
  .op2 .usub16 .r7 .r7 .r6 .id, .op2 .usub16 .r8 .r8 .r4 .id, .op1 (.lsr 16) .r0 .sl, .op1 (.lsl 6) .r3 .sl,
  .op2 .pkhbt .r3 .r3 .r0 (.lsl 22), .op2 .usub16 .r8 .r8 .r3 .id, .op1 (.lsl 16) .r0 .r7, .op1 (.lsr 1) .r3 .r7,
  .op2 .pkhtb .r7 .r3 .r0 (.asr 17), .op2 .uadd16 .r6 .r6 .r7 .id, .op1 (.lsr 16) .r0 .r8, .op1 (.lsl 1) .r3 .r8,
  .op2 .pkhbt .r3 .r3 .r0 (.lsl 17), .op2 .uadd16 .r8 .r9 .r3 .id, .op1 (.lsr 16) .r0 .r6, .op1 (.lsl 6) .r3 .r6,
  .op2 .pkhbt .r3 .r3 .r0 (.lsl 22), .op2 .uadd16 .r3 .r6 .r3 .id, .op2 .usub16 .r5 .r5 .r3 .id, .op2 .usub16 .r6 .r6 .sl .id,
  .op2 .usub16 .r6 .r6 .r4 .id, .movi .r3 45, .op2 .smulbb .r0 .r6 .r3 .id, .op2 .smultb .r3 .r6 .r3 .id,
  .op2 .pkhbt .r3 .r0 .r3 (.lsl 16), .op2 .uadd16 .r5 .r5 .r3 .id, .op1 (.lsr 16) .r0 .r6, .op1 (.lsl 3) .r3 .r6,
  .op2 .pkhbt .r3 .r3 .r0 (.lsl 19), .op2 .usub16 .r8 .r8 .r3 .id, .movi .r3 43691, .op2 .smulbb .r0 .r8 .r3 .id,
  .op2 .smultb .r3 .r8 .r3 .id, .op2 .pkhbt .r3 .r0 .r3 (.lsl 16), .op1 (.lsl 16) .r0 .r3, .op1 (.lsr 3) .r3 .r3,
  .op2 .pkhtb .r8 .r3 .r0 (.asr 19), .op2 .uadd16 .r9 .r5 .r9 .id, .op1 (.lsr 16) .r0 .r7, .op1 (.lsl 4) .r3 .r7,
  .op2 .pkhbt .r3 .r3 .r0 (.lsl 20), .op2 .uadd16 .r5 .r5 .r3 .id, .movi .r3 36409, .op2 .smulbb .r0 .r5 .r3 .id,
  .op2 .smultb .r3 .r5 .r3 .id, .op2 .pkhbt .r3 .r0 .r3 (.lsl 16), .op1 (.lsl 16) .r0 .r3, .op1 (.lsr 1) .r3 .r3,
  .op2 .pkhtb .r5 .r3 .r0 (.asr 17), .op2 .usub16 .r6 .r6 .r8 .id, .op2 .uadd16 .r7 .r7 .r5 .id, .movi .r3 0,
  .op2 .usub16 .r7 .r3 .r7 .id, .movi .r3 30]

/-- tc.s:4855-4974 -/
def toom_cook_4way_striding_asm_48 : List Ins := [
  .op2 .smulbb .r0 .r5 .r3 .id, .op2 .smultb .r3 .r5 .r3 .id, .op2 .pkhbt .r3 .r0 .r3 (.lsl 16), .op2 .usub16 .r9 .r3 .r9 .id,
  .movi .r3 61167, .op2 .smulbb .r0 .r9 .r3 .id, .op2 .smultb .r3 .r9 .r3 .id, .op2 .pkhbt .r3 .r0 .r3 (.lsl 16), .op1 (.lsl 16) .r0 .r3,
  .op1 (.lsr 2) .r3 .r3, .op2 .pkhtb .r9 .r3 .r0 (.asr 18), .op2 .usub16 .r5 .r5 .r9 .id, .op2 .pkhbt .r0 .sl .r9 (.lsl 16),
  .op2 .pkhbt .r3 .r8 .r7 (.lsl 16), .op2 .uadd16 .r0 .r0 .lr .id, .op2 .uadd16 .r3 .r3 .ip .id, .op2 .pkhtb .lr .r5 .r6 (.asr 16),
  .op2 .pkhtb .ip .ip .r4 (.asr 16), .op2 .pkhbt .r5 .r6 .r5 (.lsl 16), .op2 .pkhbt .r4 .r4 .ip .id, .op2 .pkhtb .r9 .r9 .sl (.asr 16),
  .op2 .pkhtb .sl .r7 .r8 (.asr 16), .op2 .uadd16 .r9 .r9 .r5 .id, .op2 .uadd16 .sl .sl .r4 .id, .ldr .r4 .r2 416 .off,
  .ldr .r5 .r2 420 .off, .ldr .r6 .r2 424 .off, .ldr .fp .r2 428 .off, .op2 .uadd16 .r4 .r4 .r0 .id, .str .r4 .r2 416 .off,
  .op2 .uadd16 .r5 .r5 .r3 .id, .str .r5 .r2 420 .off, .op2 .uadd16 .r6 .r6 .r9 .id, .str .r6 .r2 424 .off, .op2 .uadd16 .fp .fp .sl .id,
  .str .fp .r2 428 .off, .ldr .r4 .r1 236 .off, .ldr .r5 .r1 108 .off, .ldr .r6 .sp 1004 .off, .ldr .r7 .sp 1132 .off,
  .ldr .r8 .sp 1260 .off, .ldr .r9 .sp 1388 .off, .ldr .sl .sp 1516 .off, .op2 .uadd16 .r5 .r5 .r8 .id, .op2 .usub16 .r9 .r9 .r8 .id,
  .op2 .usub16 .r7 .r7 .r6 .id, .op2 .usub16 .r8 .r8 .r4 .id, .op1 (.lsr 16) .r0 .sl, .op1 (.lsl 6) .r3 .sl,
  .op2 .pkhbt .r3 .r3 .r0 (.lsl 22), .op2 .usub16 .r8 .r8 .r3 .id, .op1 (.lsl 16) .r0 .r7, .op1 (.lsr 1) .r3 .r7,
  .op2 .pkhtb .r7 .r3 .r0 (.asr 17), .op2 .uadd16 .r6 .r6 .r7 .id, .op1 (.lsr 16) .r0 .r8, .op1 (.lsl 1) .r3 .r8,
  .op2 .pkhbt .r3 .r3 .r0 (.lsl 17), .op2 .uadd16 .r8 .r9 .r3 .id, .op1 (.lsr 16) .r0 .r6, .op1 (.lsl 6) .r3 .r6,
  .op2 .pkhbt .r3 .r3 .r0 (.lsl 22), .op2 .uadd16 .r3 .r6 .r3 .id, .op2 .usub16 .r5 .r5 .r3 .id, .op2 .usub16 .r6 .r6 .sl .id,
  .op2 .usub16 .r6 .r6 .r4 .id, .movi .r3 45, .op2 .smulbb .r0 .r6 .r3 .id, .op2 .smultb .r3 .r6 .r3 .id,
  .op2 .pkhbt .r3 .r0 .r3 (.lsl 16), .op2 .uadd16 .r5 .r5 .r3 .id, .op1 (.lsr 16) .r0 .r6, .op1 (.lsl 3) .r3 .r6,
  .op2 .pkhbt .r3 .r3 .r0 (.lsl 19), .op2 .usub16 .r8 .r8 .r3 .id, .movi .r3 43691, .op2 .smulbb .r0 .r8 .r3 .id,
  .op2 .smultb .r3 .r8 .r3 .id, .op2 .pkhbt .r3 .r0 .r3 (.lsl 16), .op1 (.lsl 16) .r0 .r3, .op1 (.lsr 3) .r3 .r3,
  .op2 .pkhtb .r8 .r3 .r0 (.asr 19), .op2 .uadd16 .r9 .r5 .r9 .id, .op1 (.lsr 16) .r0 .r7, .op1 (.lsl 4) .r3 .r7,
  .op2 .pkhbt .r3 .r3 .r0 (.lsl 20), .op2 .uadd16 .r5 .r5 .r3 .id, .movi .r3 36409, .op2 .smulbb .r0 .r5 .r3 .id,
  .op2 .smultb .r3 .r5 .r3 .id, .op2 .pkhbt .r3 .r0 .r3 (.lsl 16), .op1 (.lsl 16) .r0 .r3, .op1 (.lsr 1) .r3 .r3,
  .op2 .pkhtb .r5 .r3 .r0 (.asr 17), .op2 .usub16 .r6 .r6 .r8 .id, .op2 .uadd16 .r7 .r7 .r5 .id, .movi .r3 0,
  .op2 .usub16 .r7 .r3 .r7 .id, .movi .r3 30, .op2 .smulbb .r0 .r5 .r3 .id, .op2 .smultb .r3 .r5 .r3 .id,
  .op2 .pkhbt .r3 .r0 .r3 (.lsl 16), .op2 .usub16 .r9 .r3 .r9 .id, .movi .r3 61167, .op2 .smulbb .r0 .r9 .r3 .id,
  .op2 .smultb .r3 .r9 .r3 .id, .op2 .pkhbt .r3 .r0 .r3 (.lsl 16), .op1 (.lsl 16) .r0 .r3, .op1 (.lsr 2) .r3 .r3,
  .op2 .pkhtb .r9 .r3 .r0 (.asr 18), .op2 .usub16 .r5 .r5 .r9 .id, .op2 .pkhbt .r0 .sl .r9 (.lsl 16), .op2 .pkhbt .r3 .r8 .r7 (.lsl 16),
  .op2 .uadd16 .r0 .r0 .lr .id, .op2 .uadd16 .r3 .r3 .ip .id, .op2 .pkhtb .lr .r5 .r6 (.asr 16), .op2 .pkhtb .ip .ip .r4 (.asr 16),
  .op2 .pkhbt .r5 .r6 .r5 (.lsl 16), .op2 .pkhbt .r4 .r4 .ip .id, .op2 .pkhtb .r9 .r9 .sl (.asr 16)]

/-- tc.s:4975-5094 -/
def toom_cook_4way_striding_asm_49 : List Ins := [
  .op2 .pkhtb .sl .r7 .r8 (.asr 16), .op2 .uadd16 .r9 .r9 .r5 .id, .op2 .uadd16 .sl .sl .r4 .id, .ldr .r4 .r2 432 .off,
  .ldr .r5 .r2 436 .off, .ldr .r6 .r2 440 .off, .ldr .fp .r2 444 .off, .op2 .uadd16 .r4 .r4 .r0 .id, .str .r4 .r2 432 .off,
  .op2 .uadd16 .r5 .r5 .r3 .id, .str .r5 .r2 436 .off, .op2 .uadd16 .r6 .r6 .r9 .id, .str .r6 .r2 440 .off, .op2 .uadd16 .fp .fp .sl .id,
  .str .fp .r2 444 .off, .ldr .r4 .r1 240 .off, .ldr .r5 .r1 112 .off, .ldr .r6 .sp 1008 .off, .ldr .r7 .sp 1136 .off,
  .ldr .r8 .sp 1264 .off, .ldr .r9 .sp 1392 .off, .ldr .sl .sp 1520 .off, .op2 .uadd16 .r5 .r5 .r8 .id, .op2 .usub16 .r9 .r9 .r8 .id,
  .op2 .usub16 .r7 .r7 .r6 .id, .op2 .usub16 .r8 .r8 .r4 .id, .op1 (.lsr 16) .r0 .sl, .op1 (.lsl 6) .r3 .sl,
  .op2 .pkhbt .r3 .r3 .r0 (.lsl 22), .op2 .usub16 .r8 .r8 .r3 .id, .op1 (.lsl 16) .r0 .r7, .op1 (.lsr 1) .r3 .r7,
  .op2 .pkhtb .r7 .r3 .r0 (.asr 17), .op2 .uadd16 .r6 .r6 .r7 .id, .op1 (.lsr 16) .r0 .r8, .op1 (.lsl 1) .r3 .r8,
  .op2 .pkhbt .r3 .r3 .r0 (.lsl 17), .op2 .uadd16 .r8 .r9 .r3 .id, .op1 (.lsr 16) .r0 .r6, .op1 (.lsl 6) .r3 .r6,
  .op2 .pkhbt .r3 .r3 .r0 (.lsl 22), .op2 .uadd16 .r3 .r6 .r3 .id, .op2 .usub16 .r5 .r5 .r3 .id, .op2 .usub16 .r6 .r6 .sl .id,
  .op2 .usub16 .r6 .r6 .r4 .id, .movi .r3 45, .op2 .smulbb .r0 .r6 .r3 .id, .op2 .smultb .r3 .r6 .r3 .id,
  .op2 .pkhbt .r3 .r0 .r3 (.lsl 16), .op2 .uadd16 .r5 .r5 .r3 .id, .op1 (.lsr 16) .r0 .r6, .op1 (.lsl 3) .r3 .r6,
  .op2 .pkhbt .r3 .r3 .r0 (.lsl 19), .op2 .usub16 .r8 .r8 .r3 .id, .movi .r3 43691, .op2 .smulbb .r0 .r8 .r3 .id,
  .op2 .smultb .r3 .r8 .r3 .id, .op2 .pkhbt .r3 .r0 .r3 (.lsl 16), .op1 (.lsl 16) .r0 .r3, .op1 (.lsr 3) .r3 .r3,
  .op2 .pkhtb .r8 .r3 .r0 (.asr 19), .op2 .uadd16 .r9 .r5 .r9 .id, .op1 (.lsr 16) .r0 .r7, .op1 (.lsl 4) .r3 .r7,
  .op2 .pkhbt .r3 .r3 .r0 (.lsl 20), .op2 .uadd16 .r5 .r5 .r3 .id, .movi .r3 36409, .op2 .smulbb .r0 .r5 .r3 .id,
  .op2 .smultb .r3 .r5 .r3 .id, .op2 .pkhbt .r3 .r0 .r3 (.lsl 16), .op1 (.lsl 16) .r0 .r3, .op1 (.lsr 1) .r3 .r3,
  .op2 .pkhtb .r5 .r3 .r0 (.asr 17), .op2 .usub16 .r6 .r6 .r8 .id, .op2 .uadd16 .r7 .r7 .r5 .id, .movi .r3 0,
  .op2 .usub16 .r7 .r3 .r7 .id, .movi .r3 30, .op2 .smulbb .r0 .r5 .r3 .id, .op2 .smultb .r3 .r5 .r3 .id,
  .op2 .pkhbt .r3 .r0 .r3 (.lsl 16), .op2 .usub16 .r9 .r3 .r9 .id, .movi .r3 61167, .op2 .smulbb .r0 .r9 .r3 .id,
  .op2 .smultb .r3 .r9 .r3 .id, .op2 .pkhbt .r3 .r0 .r3 (.lsl 16), .op1 (.lsl 16) .r0 .r3, .op1 (.lsr 2) .r3 .r3,
  .op2 .pkhtb .r9 .r3 .r0 (.asr 18), .op2 .usub16 .r5 .r5 .r9 .id, .op2 .pkhbt .r0 .sl .r9 (.lsl 16), .op2 .pkhbt .r3 .r8 .r7 (.lsl 16),
  .op2 .uadd16 .r0 .r0 .lr .id, .op2 .uadd16 .r3 .r3 .ip .id, .op2 .pkhtb .lr .r5 .r6 (.asr 16), .op2 .pkhtb .ip .ip .r4 (.asr 16),
  .op2 .pkhbt .r5 .r6 .r5 (.lsl 16), .op2 .pkhbt .r4 .r4 .ip .id, .op2 .pkhtb .r9 .r9 .sl (.asr 16), .op2 .pkhtb .sl .r7 .r8 (.asr 16),
  .op2 .uadd16 .r9 .r9 .r5 .id, .op2 .uadd16 .sl .sl .r4 .id, .ldr .r4 .r2 448 .off, .ldr .r5 .r2 452 .off, .ldr .r6 .r2 456 .off,
  .ldr .fp .r2 460 .off, .op2 .uadd16 .r4 .r4 .r0 .id, .str .r4 .r2 448 .off, .op2 .uadd16 .r5 .r5 .r3 .id, .str .r5 .r2 452 .off,
  .op2 .uadd16 .r6 .r6 .r9 .id, .str .r6 .r2 456 .off, .op2 .uadd16 .fp .fp .sl .id, .str .fp .r2 460 .off, .ldr .r4 .r1 244 .off,
  .ldr .r5 .r1 116 .off, .ldr .r6 .sp 1012 .off, .ldr .r7 .sp 1140 .off, .ldr .r8 .sp 1268 .off, .ldr .r9 .sp 1396 .off]

/-- tc.s:5095-5214 -/
def toom_cook_4way_striding_asm_50 : List Ins := [
  .ldr .sl .sp 1524 .off, .op2 .uadd16 .r5 .r5 .r8 .id, .op2 .usub16 .r9 .r9 .r8 .id, .op2 .usub16 .r7 .r7 .r6 .id,
  .op2 .usub16 .r8 .r8 .r4 .id, .op1 (.lsr 16) .r0 .sl, .op1 (.lsl 6) .r3 .sl, .op2 .pkhbt .r3 .r3 .r0 (.lsl 22),
  .op2 .usub16 .r8 .r8 .r3 .id, .op1 (.lsl 16) .r0 .r7, .op1 (.lsr 1) .r3 .r7, .op2 .pkhtb .r7 .r3 .r0 (.asr 17),
  .op2 .uadd16 .r6 .r6 .r7 .id, .op1 (.lsr 16) .r0 .r8, .op1 (.lsl 1) .r3 .r8, .op2 .pkhbt .r3 .r3 .r0 (.lsl 17),
  .op2 .uadd16 .r8 .r9 .r3 .id, .op1 (.lsr 16) .r0 .r6, .op1 (.lsl 6) .r3 .r6, .op2 .pkhbt .r3 .r3 .r0 (.lsl 22),
  .op2 .uadd16 .r3 .r6 .r3 .id, .op2 .usub16 .r5 .r5 .r3 .id, .op2 .usub16 .r6 .r6 .sl .id, .op2 .usub16 .r6 .r6 .r4 .id, .movi .r3 45,
  .op2 .smulbb .r0 .r6 .r3 .id, .op2 .smultb .r3 .r6 .r3 .id, .op2 .pkhbt .r3 .r0 .r3 (.lsl 16), .op2 .uadd16 .r5 .r5 .r3 .id,
  .op1 (.lsr 16) .r0 .r6, .op1 (.lsl 3) .r3 .r6, .op2 .pkhbt .r3 .r3 .r0 (.lsl 19), .op2 .usub16 .r8 .r8 .r3 .id, .movi .r3 43691,
  .op2 .smulbb .r0 .r8 .r3 .id, .op2 .smultb .r3 .r8 .r3 .id, .op2 .pkhbt .r3 .r0 .r3 (.lsl 16), .op1 (.lsl 16) .r0 .r3,
  .op1 (.lsr 3) .r3 .r3, .op2 .pkhtb .r8 .r3 .r0 (.asr 19), .op2 .uadd16 .r9 .r5 .r9 .id, .op1 (.lsr 16) .r0 .r7, .op1 (.lsl 4) .r3 .r7,
  .op2 .pkhbt .r3 .r3 .r0 (.lsl 20), .op2 .uadd16 .r5 .r5 .r3 .id, .movi .r3 36409, .op2 .smulbb .r0 .r5 .r3 .id,
  .op2 .smultb .r3 .r5 .r3 .id, .op2 .pkhbt .r3 .r0 .r3 (.lsl 16), .op1 (.lsl 16) .r0 .r3, .op1 (.lsr 1) .r3 .r3,
  .op2 .pkhtb .r5 .r3 .r0 (.asr 17), .op2 .usub16 .r6 .r6 .r8 .id, .op2 .uadd16 .r7 .r7 .r5 .id, .movi .r3 0,
  .op2 .usub16 .r7 .r3 .r7 .id, .movi .r3 30, .op2 .smulbb .r0 .r5 .r3 .id, .op2 .smultb .r3 .r5 .r3 .id,
  .op2 .pkhbt .r3 .r0 .r3 (.lsl 16), .op2 .usub16 .r9 .r3 .r9 .id, .movi .r3 61167, .op2 .smulbb .r0 .r9 .r3 .id,
  .op2 .smultb .r3 .r9 .r3 .id, .op2 .pkhbt .r3 .r0 .r3 (.lsl 16), .op1 (.lsl 16) .r0 .r3, .op1 (.lsr 2) .r3 .r3,
  .op2 .pkhtb .r9 .r3 .r0 (.asr 18), .op2 .usub16 .r5 .r5 .r9 .id, .op2 .pkhbt .r0 .sl .r9 (.lsl 16), .op2 .pkhbt .r3 .r8 .r7 (.lsl 16),
  .op2 .uadd16 .r0 .r0 .lr .id, .op2 .uadd16 .r3 .r3 .ip .id, .op2 .pkhtb .lr .r5 .r6 (.asr 16), .op2 .pkhtb .ip .ip .r4 (.asr 16),
  .op2 .pkhbt .r5 .r6 .r5 (.lsl 16), .op2 .pkhbt .r4 .r4 .ip .id, .op2 .pkhtb .r9 .r9 .sl (.asr 16), .op2 .pkhtb .sl .r7 .r8 (.asr 16),
  .op2 .uadd16 .r9 .r9 .r5 .id, .op2 .uadd16 .sl .sl .r4 .id, .ldr .r4 .r2 464 .off, .ldr .r5 .r2 468 .off, .ldr .r6 .r2 472 .off,
  .ldr .fp .r2 476 .off, .op2 .uadd16 .r4 .r4 .r0 .id, .str .r4 .r2 464 .off, .op2 .uadd16 .r5 .r5 .r3 .id, .str .r5 .r2 468 .off,
  .op2 .uadd16 .r6 .r6 .r9 .id, .str .r6 .r2 472 .off, .op2 .uadd16 .fp .fp .sl .id, .str .fp .r2 476 .off, .ldr .r4 .r1 248 .off,
  .ldr .r5 .r1 120 .off, .ldr .r6 .sp 1016 .off, .ldr .r7 .sp 1144 .off, .ldr .r8 .sp 1272 .off, .ldr .r9 .sp 1400 .off,
  .ldr .sl .sp 1528 .off, .op2 .uadd16 .r5 .r5 .r8 .id, .op2 .usub16 .r9 .r9 .r8 .id, .op2 .usub16 .r7 .r7 .r6 .id,
  .op2 .usub16 .r8 .r8 .r4 .id, .op1 (.lsr 16) .r0 .sl, .op1 (.lsl 6) .r3 .sl, .op2 .pkhbt .r3 .r3 .r0 (.lsl 22),
  .op2 .usub16 .r8 .r8 .r3 .id, .op1 (.lsl 16) .r0 .r7, .op1 (.lsr 1) .r3 .r7, .op2 .pkhtb .r7 .r3 .r0 (.asr 17),
  .op2 .uadd16 .r6 .r6 .r7 .id, .op1 (.lsr 16) .r0 .r8, .op1 (.lsl 1) .r3 .r8, .op2 .pkhbt .r3 .r3 .r0 (.lsl 17),
  .op2 .uadd16 .r8 .r9 .r3 .id, .op1 (.lsr 16) .r0 .r6, .op1 (.lsl 6) .r3 .r6, .op2 .pkhbt .r3 .r3 .r0 (.lsl 22),
  .op2 .uadd16 .r3 .r6 .r3 .id]

/-- tc.s:5215-5334 -/
def toom_cook_4way_striding_asm_51 : List Ins := [
  .op2 .usub16 .r5 .r5 .r3 .id, .op2 .usub16 .r6 .r6 .sl .id, .op2 .usub16 .r6 .r6 .r4 .id, .movi .r3 45, .op2 .smulbb .r0 .r6 .r3 .id,
  .op2 .smultb .r3 .r6 .r3 .id, .op2 .pkhbt .r3 .r0 .r3 (.lsl 16), .op2 .uadd16 .r5 .r5 .r3 .id, .op1 (.lsr 16) .r0 .r6,
  .op1 (.lsl 3) .r3 .r6, .op2 .pkhbt .r3 .r3 .r0 (.lsl 19), .op2 .usub16 .r8 .r8 .r3 .id, .movi .r3 43691, .op2 .smulbb .r0 .r8 .r3 .id,
  .op2 .smultb .r3 .r8 .r3 .id, .op2 .pkhbt .r3 .r0 .r3 (.lsl 16), .op1 (.lsl 16) .r0 .r3, .op1 (.lsr 3) .r3 .r3,
  .op2 .pkhtb .r8 .r3 .r0 (.asr 19), .op2 .uadd16 .r9 .r5 .r9 .id, .op1 (.lsr 16) .r0 .r7, .op1 (.lsl 4) .r3 .r7,
  .op2 .pkhbt .r3 .r3 .r0 (.lsl 20), .op2 .uadd16 .r5 .r5 .r3 .id, .movi .r3 36409, .op2 .smulbb .r0 .r5 .r3 .id,
  .op2 .smultb .r3 .r5 .r3 .id, .op2 .pkhbt .r3 .r0 .r3 (.lsl 16), .op1 (.lsl 16) .r0 .r3, .op1 (.lsr 1) .r3 .r3,
  .op2 .pkhtb .r5 .r3 .r0 (.asr 17), .op2 .usub16 .r6 .r6 .r8 .id, .op2 .uadd16 .r7 .r7 .r5 .id, .movi .r3 0,
  .op2 .usub16 .r7 .r3 .r7 .id, .movi .r3 30, .op2 .smulbb .r0 .r5 .r3 .id, .op2 .smultb .r3 .r5 .r3 .id,
  .op2 .pkhbt .r3 .r0 .r3 (.lsl 16), .op2 .usub16 .r9 .r3 .r9 .id, .movi .r3 61167, .op2 .smulbb .r0 .r9 .r3 .id,
  .op2 .smultb .r3 .r9 .r3 .id, .op2 .pkhbt .r3 .r0 .r3 (.lsl 16), .op1 (.lsl 16) .r0 .r3, .op1 (.lsr 2) .r3 .r3,
  .op2 .pkhtb .r9 .r3 .r0 (.asr 18), .op2 .usub16 .r5 .r5 .r9 .id, .op2 .pkhbt .r0 .sl .r9 (.lsl 16), .op2 .pkhbt .r3 .r8 .r7 (.lsl 16),
  .op2 .uadd16 .r0 .r0 .lr .id, .op2 .uadd16 .r3 .r3 .ip .id, .op2 .pkhtb .lr .r5 .r6 (.asr 16), .op2 .pkhtb .ip .ip .r4 (.asr 16),
  .op2 .pkhbt .r5 .r6 .r5 (.lsl 16), .op2 .pkhbt .r4 .r4 .ip .id, .op2 .pkhtb .r9 .r9 .sl (.asr 16), .op2 .pkhtb .sl .r7 .r8 (.asr 16),
  .op2 .uadd16 .r9 .r9 .r5 .id, .op2 .uadd16 .sl .sl .r4 .id, .ldr .r4 .r2 480 .off, .ldr .r5 .r2 484 .off, .ldr .r6 .r2 488 .off,
  .ldr .fp .r2 492 .off, .op2 .uadd16 .r4 .r4 .r0 .id, .str .r4 .r2 480 .off, .op2 .uadd16 .r5 .r5 .r3 .id, .str .r5 .r2 484 .off,
  .op2 .uadd16 .r6 .r6 .r9 .id, .str .r6 .r2 488 .off, .op2 .uadd16 .fp .fp .sl .id, .str .fp .r2 492 .off, .ldr .r4 .r1 252 .off,
  .ldr .r5 .r1 124 .off, .ldr .r6 .sp 1020 .off, .ldr .r7 .sp 1148 .off, .ldr .r8 .sp 1276 .off, .ldr .r9 .sp 1404 .off,
  .ldr .sl .sp 1532 .off, .op2 .uadd16 .r5 .r5 .r8 .id, .op2 .usub16 .r9 .r9 .r8 .id, .op2 .usub16 .r7 .r7 .r6 .id,
  .op2 .usub16 .r8 .r8 .r4 .id, .op1 (.lsr 16) .r0 .sl, .op1 (.lsl 6) .r3 .sl, .op2 .pkhbt .r3 .r3 .r0 (.lsl 22),
  .op2 .usub16 .r8 .r8 .r3 .id, .op1 (.lsl 16) .r0 .r7, .op1 (.lsr 1) .r3 .r7, .op2 .pkhtb .r7 .r3 .r0 (.asr 17),
  .op2 .uadd16 .r6 .r6 .r7 .id, .op1 (.lsr 16) .r0 .r8, .op1 (.lsl 1) .r3 .r8, .op2 .pkhbt .r3 .r3 .r0 (.lsl 17),
  .op2 .uadd16 .r8 .r9 .r3 .id, .op1 (.lsr 16) .r0 .r6, .op1 (.lsl 6) .r3 .r6, .op2 .pkhbt .r3 .r3 .r0 (.lsl 22),
  .op2 .uadd16 .r3 .r6 .r3 .id, .op2 .usub16 .r5 .r5 .r3 .id, .op2 .usub16 .r6 .r6 .sl .id, .op2 .usub16 .r6 .r6 .r4 .id, .movi .r3 45,
  .op2 .smulbb .r0 .r6 .r3 .id, .op2 .smultb .r3 .r6 .r3 .id, .op2 .pkhbt .r3 .r0 .r3 (.lsl 16), .op2 .uadd16 .r5 .r5 .r3 .id,
  .op1 (.lsr 16) .r0 .r6, .op1 (.lsl 3) .r3 .r6, .op2 .pkhbt .r3 .r3 .r0 (.lsl 19), .op2 .usub16 .r8 .r8 .r3 .id, .movi .r3 43691,
  .op2 .smulbb .r0 .r8 .r3 .id, .op2 .smultb .r3 .r8 .r3 .id, .op2 .pkhbt .r3 .r0 .r3 (.lsl 16), .op1 (.lsl 16) .r0 .r3,
  .op1 (.lsr 3) .r3 .r3, .op2 .pkhtb .r8 .r3 .r0 (.asr 19), .op2 .uadd16 .r9 .r5 .r9 .id, .op1 (.lsr 16) .r0 .r7]

/-- tc.s:5335-5394 -/
def toom_cook_4way_striding_asm_52 : List Ins := [
  .op1 (.lsl 4) .r3 .r7, .op2 .pkhbt .r3 .r3 .r0 (.lsl 20), .op2 .uadd16 .r5 .r5 .r3 .id, .movi .r3 36409, .op2 .smulbb .r0 .r5 .r3 .id,
  .op2 .smultb .r3 .r5 .r3 .id, .op2 .pkhbt .r3 .r0 .r3 (.lsl 16), .op1 (.lsl 16) .r0 .r3, .op1 (.lsr 1) .r3 .r3,
  .op2 .pkhtb .r5 .r3 .r0 (.asr 17), .op2 .usub16 .r6 .r6 .r8 .id, .op2 .uadd16 .r7 .r7 .r5 .id, .movi .r3 0,
  .op2 .usub16 .r7 .r3 .r7 .id, .movi .r3 30, .op2 .smulbb .r0 .r5 .r3 .id, .op2 .smultb .r3 .r5 .r3 .id,
  .op2 .pkhbt .r3 .r0 .r3 (.lsl 16), .op2 .usub16 .r9 .r3 .r9 .id, .movi .r3 61167, .op2 .smulbb .r0 .r9 .r3 .id,
  .op2 .smultb .r3 .r9 .r3 .id, .op2 .pkhbt .r3 .r0 .r3 (.lsl 16), .op1 (.lsl 16) .r0 .r3, .op1 (.lsr 2) .r3 .r3,
  .op2 .pkhtb .r9 .r3 .r0 (.asr 18), .op2 .usub16 .r5 .r5 .r9 .id, .op2 .pkhbt .r0 .sl .r9 (.lsl 16), .op2 .pkhbt .r3 .r8 .r7 (.lsl 16),
  .op2 .uadd16 .r0 .r0 .lr .id, .op2 .uadd16 .r3 .r3 .ip .id, .op2 .pkhtb .lr .r5 .r6 (.asr 16), .op2 .pkhtb .ip .ip .r4 (.asr 16),
  .op2 .pkhbt .r5 .r6 .r5 (.lsl 16), .op2 .pkhbt .r4 .r4 .ip .id, .op2 .pkhtb .r9 .r9 .sl (.asr 16), .op2 .pkhtb .sl .r7 .r8 (.asr 16),
  .op2 .uadd16 .r9 .r9 .r5 .id, .op2 .uadd16 .sl .sl .r4 .id, .ldr .r4 .r2 496 .off, .ldr .r5 .r2 500 .off, .ldr .r6 .r2 504 .off,
  .ldr .fp .r2 508 .off, .op2 .uadd16 .r4 .r4 .r0 .id, .str .r4 .r2 496 .off, .op2 .uadd16 .r5 .r5 .r3 .id, .str .r5 .r2 500 .off,
  .op2 .uadd16 .r6 .r6 .r9 .id, .str .r6 .r2 504 .off, .op2 .uadd16 .fp .fp .sl .id, .str .fp .r2 508 .off, .ldr .r0 .r2 0 .off,
  .ldr .r3 .r2 4 .off, .op2 .usub16 .r0 .r0 .lr .id, .str .r0 .r2 0 .off, .op2 .usub16 .r3 .r3 .ip .id, .str .r3 .r2 4 .off,
  .addi .sp .sp 1664, .pop [.r4, .r5, .r6, .r7, .r8, .r9, .sl, .fp, .lr], .bx .lr]

/-- `toom_cook_4way_striding_asm` (tc.s:6-5394) -/
def toom_cook_4way_striding_asm : List Stmt := [
  .ins toom_cook_4way_striding_asm_1, .ins toom_cook_4way_striding_asm_2, .ins toom_cook_4way_striding_asm_3, .ins toom_cook_4way_striding_asm_4, .ins toom_cook_4way_striding_asm_5, .ins toom_cook_4way_striding_asm_6, .ins toom_cook_4way_striding_asm_7, .ins toom_cook_4way_striding_asm_8, .ins toom_cook_4way_striding_asm_9, .ins toom_cook_4way_striding_asm_10, .ins toom_cook_4way_striding_asm_11, .ins toom_cook_4way_striding_asm_12, .ins toom_cook_4way_striding_asm_13, .ins toom_cook_4way_striding_asm_14, .ins toom_cook_4way_striding_asm_15, .ins toom_cook_4way_striding_asm_16, .ins toom_cook_4way_striding_asm_17, .ins toom_cook_4way_striding_asm_18, .ins toom_cook_4way_striding_asm_19, .call 0, .ins toom_cook_4way_striding_asm_20, .call 0, .ins toom_cook_4way_striding_asm_21, .call 0, .ins toom_cook_4way_striding_asm_22, .call 0, .ins toom_cook_4way_striding_asm_23, .call 0, .ins toom_cook_4way_striding_asm_24, .call 0, .ins toom_cook_4way_striding_asm_25, .call 1, .ins toom_cook_4way_striding_asm_26, .ins toom_cook_4way_striding_asm_27, .ins toom_cook_4way_striding_asm_28, .ins toom_cook_4way_striding_asm_29, .ins toom_cook_4way_striding_asm_30, .ins toom_cook_4way_striding_asm_31, .ins toom_cook_4way_striding_asm_32, .ins toom_cook_4way_striding_asm_33, .ins toom_cook_4way_striding_asm_34, .ins toom_cook_4way_striding_asm_35, .ins toom_cook_4way_striding_asm_36, .ins toom_cook_4way_striding_asm_37, .ins toom_cook_4way_striding_asm_38, .ins toom_cook_4way_striding_asm_39, .ins toom_cook_4way_striding_asm_40, .ins toom_cook_4way_striding_asm_41, .ins toom_cook_4way_striding_asm_42, .ins toom_cook_4way_striding_asm_43, .ins toom_cook_4way_striding_asm_44, .ins toom_cook_4way_striding_asm_45, .ins toom_cook_4way_striding_asm_46, .ins toom_cook_4way_striding_asm_47, .ins toom_cook_4way_striding_asm_48, .ins toom_cook_4way_striding_asm_49, .ins toom_cook_4way_striding_asm_50, .ins toom_cook_4way_striding_asm_51, .ins toom_cook_4way_striding_asm_52]

end Saber.Arm
