import Verif.Model.Arm.Thumb
/-!
# The byte functions of `Cortex-M0/saber-ref-mem/src/asm_KeccakF-1600.S`

`KeccakF1600_Initialize`, `KeccakF1600_StateInitialize`, `KeccakF1600_StateComplementBit`, `KeccakF1600_StateXORBytes` and
`KeccakF1600_StateExtractBytes` with their helper functions (lines 24-139 and 616-999; all line numbers refer to that file), instruction by instruction.
The Makefile links them; the C code does not call them (cf. C53).  Each label stands for the instructions from there to the end of the function.  The labels `xorRet1` to
`extractRet3` are not in the source: they name the instructions after the calls (`bl`).
-/
namespace Saber.Thumb
open Arm.Reg
open Op

/-- The labels. -/
inductive Lab
  | initialize | stateInitialize | complementBit
  | xorBytes | xorAlign | xorCheckLanes | xorTail | xorExit | xorExit1 | xorRet1 | xorRet2 | xorRet3
  | xorLanes | xorLoopAligned | xorLoopUnaligned
  | xorInLane | xorInLaneLoop
  | extractBytes | extractAlign | extractCheckLanes | extractTail | extractExit | extractExit1 | extractRet1 | extractRet2 | extractRet3
  | extractLanes | extractLoopAligned | extractLoopUnaligned
  | extractInLane | extractInLaneLoop
  deriving DecidableEq

/-- Instructions of a program with these labels. -/
abbrev I := Ins Lab

/-- A sequence of instructions without jumps. -/
def ops (l : List Op) : List I := l.map .op

/-- Four instructions that occur eight times in `toBitInterleaving` (lines 27-30 and on), with shifts to the right. -/
def squeezeR (out t p : Arm.Reg) (o k : Nat) : List Op := [ldr t p o, alu .and out out t, lsrs t out k, alu .orr out out t]

/-- The same with shifts to the left (lines 70-73 and on). -/
def squeezeL (out t p : Arm.Reg) (o k : Nat) : List Op := [ldr t p o, alu .and out out t, lsls t out k, alu .orr out out t]

/-- `toBitInterleaving` (lines 24-107) -/
def toBitInterleaving (in0 in1 out0 out1 t tt pMask : Arm.Reg) : List Op :=
  mov out0 in0 :: (squeezeR out0 t pMask 0 1 ++ (squeezeR out0 t pMask 4 2 ++ (squeezeR out0 t pMask 8 4 ++ (squeezeR out0 t pMask 12 8 ++
  mov out1 in1 :: (squeezeR out1 t pMask 0 1 ++ (squeezeR out1 t pMask 4 2 ++ (squeezeR out1 t pMask 8 4 ++ (squeezeR out1 t pMask 12 8 ++
  ([lsls out0 out0 16, lsrs out0 out0 16, lsls out1 out1 16, alu .orr out0 out0 out1] ++
  mov out1 in0 :: (squeezeL out1 t pMask 16 1 ++ (squeezeL out1 t pMask 20 2 ++ (squeezeL out1 t pMask 24 4 ++ (squeezeL out1 t pMask 28 8 ++
  mov tt in1 :: (squeezeL tt t pMask 16 1 ++ (squeezeL tt t pMask 20 2 ++ (squeezeL tt t pMask 24 4 ++ (squeezeL tt t pMask 28 8 ++
  [lsrs out1 out1 16, lsrs tt tt 16, lsls tt tt 16, alu .orr out1 out1 tt])))))))))))))))))

/-- `fromBitInterleavingStep` (lines 110-120) -/
def fromBitInterleavingStep (x t tt pMask : Arm.Reg) (maskofs shift : Nat) : List Op :=
  [lsrs t x shift, alu .eor t t x, ldr tt pMask maskofs, alu .and t t tt, alu .eor x x t, lsls t t shift, alu .eor x x t]

/-- `fromBitInterleaving` (lines 122-139) -/
def fromBitInterleaving (x0 x1 t tt pMask : Arm.Reg) : List Op :=
  [movs t x0, lsls x0 x0 16, lsrs x0 x0 16, lsls tt x1 16, alu .orr x0 x0 tt, lsrs x1 x1 16, lsls x1 x1 16, lsrs t t 16, alu .orr x1 x1 t] ++
  (fromBitInterleavingStep x0 t tt pMask 0 8 ++ (fromBitInterleavingStep x0 t tt pMask 4 4 ++
  (fromBitInterleavingStep x0 t tt pMask 8 2 ++ (fromBitInterleavingStep x0 t tt pMask 12 1 ++
  (fromBitInterleavingStep x1 t tt pMask 0 8 ++ (fromBitInterleavingStep x1 t tt pMask 4 4 ++
  (fromBitInterleavingStep x1 t tt pMask 8 2 ++ fromBitInterleavingStep x1 t tt pMask 12 1)))))))

/-- `KeccakF1600_StateInitialize` without the return (lines 628-646) -/
def stateInitializeB : List Op :=
  [push [r4, r5], movi r1 0, movi r2 0, movi r3 0, movi r4 0, movi r5 0, stm r0 [r1, r2, r3, r4, r5], stm r0 [r1, r2, r3, r4, r5],
    stm r0 [r1, r2, r3, r4, r5], stm r0 [r1, r2, r3, r4, r5], stm r0 [r1, r2, r3, r4, r5], stm r0 [r1, r2, r3, r4, r5],
    stm r0 [r1, r2, r3, r4, r5], stm r0 [r1, r2, r3, r4, r5], stm r0 [r1, r2, r3, r4, r5], stm r0 [r1, r2, r3, r4, r5], pop [r4, r5]]

/-- `KeccakF1600_StateComplementBit` without the return (lines 657-671) -/
def complementBitB : List Op :=
  [push [r4, lr], movi r3 1, alu .and r3 r3 r1, lsrs r2 r1 6, lsls r4 r3 2, alu .add r0 r0 r4, lsls r4 r2 3, alu .add r0 r0 r4,
    lsls r3 r1 (32-6), lsrs r3 r3 (32-5), movi r2 1, alu .lsl r2 r2 r3, ldr r3 r0 0, alu .eor r3 r3 r2, str r3 r0 0]

/-- The end of the loops in lines 767-774 and 800-807 -/
def xorStore : List Op :=
  [ldr r5 r0 0, alu .eor r6 r6 r5, ldr r5 r0 4, alu .eor r7 r7 r5, stm r0 [r6, r7], subs r2 r2 1]

/-- `__KeccakF1600_StateXORLanes_LoopUnaligned` (lines 777-809): loading eight bytes (lines 778-798) -/
def loadUnaligned : List Op :=
  [ldrb r6 r1 0, ldrb r4 r1 1, lsls r4 r4 8, alu .orr r6 r6 r4, ldrb r4 r1 2, lsls r4 r4 16, alu .orr r6 r6 r4, ldrb r4 r1 3, lsls r4 r4 24,
    alu .orr r6 r6 r4, ldrb r7 r1 4, ldrb r4 r1 5, lsls r4 r4 8, alu .orr r7 r7 r4, ldrb r4 r1 6, lsls r4 r4 16, alu .orr r7 r7 r4, ldrb r4 r1 7,
    lsls r4 r4 24, alu .orr r7 r7 r4, adds r1 r1 8]

/-- `__KeccakF1600_StateXORLanes_LoopUnaligned` (lines 777-809) -/
def xorLoopUnalignedC : List I :=
  ops loadUnaligned ++ (ops [mov r8 r6, mov r9 r7] ++ (ops (toBitInterleaving r8 r9 r6 r7 r5 r4 r3) ++ (ops xorStore ++ [.bne .xorLoopUnaligned, .bx lr])))

/-- `__KeccakF1600_StateXORLanes_LoopAligned` (lines 764-776) -/
def xorLoopAlignedC : List I :=
  ops [ldm r1 [r6, r7]] ++ (ops [mov r8 r6, mov r9 r7] ++ (ops (toBitInterleaving r8 r9 r6 r7 r5 r4 r3) ++
    (ops xorStore ++ ([.bne .xorLoopAligned, .bx lr] ++ xorLoopUnalignedC))))

/-- `__KeccakF1600_StateXORLanes` (lines 761-763) -/
def xorLanesC : List I := .op (lsls r4 r1 30) :: .bne .xorLoopUnaligned :: xorLoopAlignedC

/-- The end of `__KeccakF1600_StateXORBytesInLane` (lines 842-851) -/
def xorInLaneEnd : List I :=
  ops [pop [r4, r5], mov r8 r4, mov r9 r5] ++ (ops (toBitInterleaving r8 r9 r4 r5 r6 r2 r7) ++
    (ops [ldr r6 r0 0, alu .eor r4 r4 r6, ldr r6 r0 4, alu .eor r5 r5 r6, stm r0 [r4, r5]] ++ [.bx lr]))

/-- `__KeccakF1600_StateXORBytesInLane_Loop` (lines 835-851) -/
def xorInLaneLoopC : List I :=
  ops [ldrb r5 r1 0, strb r5 r2 0, adds r1 r1 1, adds r2 r2 1, subs r3 r3 1] ++ .bne .xorInLaneLoop :: xorInLaneEnd

/-- `__KeccakF1600_StateXORBytesInLane` (lines 830-834) -/
def xorInLaneC : List I := ops [movi r4 0, movi r5 0, push [r4, r5], add r2 r2 sp] ++ xorInLaneLoopC

/-- `KeccakF1600_StateXORBytes_Exit` (lines 724-732) -/
def xorExitC : List I := ops [pop [r4, r5, r6, r7], mov r8 r4, mov r9 r5, mov sl r6] ++ [.popPC [r4, r5, r6], .bx lr]

/-- `KeccakF1600_StateXORBytes_Bytes` (lines 718-723) -/
def xorTailC : List I := .op (cmpi r3 0) :: .beq .xorExit :: (ops [movi r2 0, adr r7 .to] ++ .bl .xorInLane .xorRet3 :: xorExitC)

/-- After the call in line 714 (lines 715-717) -/
def xorRet2C : List I := ops [mov r3 sl, lsls r3 r3 29, lsrs r3 r3 29] ++ xorTailC

/-- `KeccakF1600_StateXORBytes_CheckLanes` (lines 709-714) -/
def xorCheckLanesC : List I :=
  .op (lsrs r2 r3 3) :: .beq .xorTail :: (ops [mov sl r3, adr r3 .to] ++ .bl .xorLanes .xorRet2 :: xorRet2C)

/-- After the call in line 707 (line 708) -/
def xorRet1C : List I := .op (mov r3 sl) :: xorCheckLanesC

/-- `KeccakF1600_StateXORBytes_BytesAlign` (lines 702-707) -/
def xorAlignC : List I := ops [alu .sub r3 r3 r4, mov sl r3, movs r3 r4, adr r7 .to] ++ .bl .xorInLane .xorRet1 :: xorRet1C

/-- `KeccakF1600_StateXORBytes` (lines 682-701) -/
def xorBytesC : List I :=
  .op (cmpi r3 0) :: .beq .xorExit1 :: (ops [push [r4, r5, r6, lr], mov r4 r8, mov r5 r9, mov r6 sl, push [r4, r5, r6, r7], lsrs r4 r2 3, lsls r4 r4 3,
    alu .add r0 r0 r4, lsls r2 r2 29, lsrs r2 r2 29] ++ .beq .xorCheckLanes :: (ops [movs r4 r3, movi r5 8, alu .sub r5 r5 r2, cmp r4 r5] ++
    .ble .xorAlign :: .op (movs r4 r5) :: xorAlignC))

/-- The stores of a lane at any address (lines 945-960) -/
def storeUnaligned : List Op :=
  [strb r6 r1 0, lsrs r6 r6 8, strb r6 r1 1, lsrs r6 r6 8, strb r6 r1 2, lsrs r6 r6 8, strb r6 r1 3, strb r7 r1 4, lsrs r7 r7 8, strb r7 r1 5,
    lsrs r7 r7 8, strb r7 r1 6, lsrs r7 r7 8, strb r7 r1 7, adds r1 r1 8, subs r2 r2 1]

/-- `__KeccakF1600_StateExtractLanes_LoopUnaligned` (lines 942-962) -/
def extractLoopUnalignedC : List I :=
  ops [ldm r0 [r6, r7]] ++ (ops (fromBitInterleaving r6 r7 r5 r4 r3) ++ (ops storeUnaligned ++ [.bne .extractLoopUnaligned, .bx lr]))

/-- `__KeccakF1600_StateExtractLanes_LoopAligned` (lines 935-941) -/
def extractLoopAlignedC : List I :=
  ops [ldm r0 [r6, r7]] ++ (ops (fromBitInterleaving r6 r7 r5 r4 r3) ++ (ops [stm r1 [r6, r7], subs r2 r2 1] ++
    ([.bne .extractLoopAligned, .bx lr] ++ extractLoopUnalignedC)))

/-- `__KeccakF1600_StateExtractLanes` (lines 932-934) -/
def extractLanesC : List I := .op (lsls r4 r1 30) :: .bne .extractLoopUnaligned :: extractLoopAlignedC

/-- `__KeccakF1600_StateExtractBytesInLane_Loop` (lines 991-999) -/
def extractInLaneLoopC : List I :=
  ops [ldrb r2 r4 0, adds r4 r4 1, strb r2 r1 0, adds r1 r1 1, subs r3 r3 1] ++ [.bne .extractInLaneLoop, .op (addi sp sp 8), .bx lr]

/-- `__KeccakF1600_StateExtractBytesInLane` (lines 983-990) -/
def extractInLaneC : List I :=
  ops [ldm r0 [r4, r5], push [r0, r3]] ++ (ops (fromBitInterleaving r4 r5 r0 r3 r7) ++
    (ops [pop [r0, r3], push [r4, r5], mov r4 sp, alu .add r4 r4 r2] ++ extractInLaneLoopC))

/-- `KeccakF1600_StateExtractBytes_Exit` (lines 901-907) -/
def extractExitC : List I := ops [pop [r4, r7], mov r8 r4] ++ [.popPC [r4, r5, r6], .bx lr]

/-- `KeccakF1600_StateExtractBytes_Bytes` (lines 895-900) -/
def extractTailC : List I := .op (cmpi r3 0) :: .beq .extractExit :: (ops [movi r2 0, adr r7 .from] ++ .bl .extractInLane .extractRet3 :: extractExitC)

/-- After the call in line 891 (lines 892-894) -/
def extractRet2C : List I := ops [mov r3 r8, lsls r3 r3 29, lsrs r3 r3 29] ++ extractTailC

/-- `KeccakF1600_StateExtractBytes_CheckLanes` (lines 886-891) -/
def extractCheckLanesC : List I :=
  .op (lsrs r2 r3 3) :: .beq .extractTail :: (ops [mov r8 r3, adr r3 .from] ++ .bl .extractLanes .extractRet2 :: extractRet2C)

/-- After the call in line 884 (line 885) -/
def extractRet1C : List I := .op (mov r3 r8) :: extractCheckLanesC

/-- `KeccakF1600_StateExtractBytes_BytesAlign` (lines 879-884) -/
def extractAlignC : List I := ops [alu .sub r3 r3 r4, mov r8 r3, movs r3 r4, adr r7 .from] ++ .bl .extractInLane .extractRet1 :: extractRet1C

/-- `KeccakF1600_StateExtractBytes` (lines 861-878) -/
def extractBytesC : List I :=
  .op (cmpi r3 0) :: .beq .extractExit1 :: (ops [push [r4, r5, r6, lr], mov r4 r8, push [r4, r7], lsrs r4 r2 3, lsls r4 r4 3,
    alu .add r0 r0 r4, lsls r2 r2 29, lsrs r2 r2 29] ++ .beq .extractCheckLanes :: (ops [movs r4 r3, movi r5 8, alu .sub r5 r5 r2, cmp r4 r5] ++
    .ble .extractAlign :: .op (movs r4 r5) :: extractAlignC))

/-- The instructions at each label (lines as given for each function). -/
def code : Lab → List I
  | .initialize => [.bx lr]
  | .stateInitialize => ops stateInitializeB ++ [.bx lr]
  | .complementBit => ops complementBitB ++ [.popPC [r4], .bx lr]
  | .xorBytes => xorBytesC
  | .xorAlign => xorAlignC
  | .xorCheckLanes => xorCheckLanesC
  | .xorTail => xorTailC
  | .xorExit => xorExitC
  | .xorExit1 => [.bx lr]
  | .xorRet1 => xorRet1C
  | .xorRet2 => xorRet2C
  | .xorRet3 => xorExitC
  | .xorLanes => xorLanesC
  | .xorLoopAligned => xorLoopAlignedC
  | .xorLoopUnaligned => xorLoopUnalignedC
  | .xorInLane => xorInLaneC
  | .xorInLaneLoop => xorInLaneLoopC
  | .extractBytes => extractBytesC
  | .extractAlign => extractAlignC
  | .extractCheckLanes => extractCheckLanesC
  | .extractTail => extractTailC
  | .extractExit => extractExitC
  | .extractExit1 => [.bx lr]
  | .extractRet1 => extractRet1C
  | .extractRet2 => extractRet2C
  | .extractRet3 => extractExitC
  | .extractLanes => extractLanesC
  | .extractLoopAligned => extractLoopAlignedC
  | .extractLoopUnaligned => extractLoopUnalignedC
  | .extractInLane => extractInLaneC
  | .extractInLaneLoop => extractInLaneLoopC

/-- The constants for `toBitInterleaving` (lines 734-741) -/
def toConstants : List W := [0x55555555, 0x33333333, 0x0F0F0F0F, 0x00FF00FF, 0xAAAAAAAA, 0xCCCCCCCC, 0xF0F0F0F0, 0xFF00FF00]

/-- The constants for `fromBitInterleaving` (lines 909-912) -/
def fromConstants : List W := [0x0000FF00, 0x00F000F0, 0x0C0C0C0C, 0x22222222]

/-- The program, for any addresses of the code after the calls (`bl`) and of the tables. -/
def program (addr : Lab → W) (tabs : Tabs) : Prog Lab :=
  ⟨code, addr, tabs, [.xorRet1, .xorRet2, .xorRet3, .extractRet1, .extractRet2, .extractRet3]⟩

end Saber.Thumb
