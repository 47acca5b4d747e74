import Verif.Model.Arm.Kara
/-!
# `Cortex-M0/saber-ref-mem/src/asm_KeccakF-1600.S`

All line numbers refer to that file.  The macros of the assembler are functions that return lists of instructions, with the same names and
parameters; `.if` of the assembler is `if` here.  The functions of the file that the Makefile links but nothing calls (`KeccakF1600_Initialize`,
`KeccakF1600_StateInitialize`, `KeccakF1600_StateComplementBit`, `KeccakF1600_StateXORBytes`, `KeccakF1600_StateExtractBytes`) are in `KeccakBytes.lean`.
-/
namespace Saber.Arm.Keccak

/-- Offsets in the state (lines 143-192): word `2 l + h` belongs to lane `l`. -/
abbrev Aba0 : Nat := 0 * 4
@[inherit_doc Aba0] abbrev Aba1 : Nat := 1 * 4
@[inherit_doc Aba0] abbrev Abe0 : Nat := 2 * 4
@[inherit_doc Aba0] abbrev Abe1 : Nat := 3 * 4
@[inherit_doc Aba0] abbrev Abi0 : Nat := 4 * 4
@[inherit_doc Aba0] abbrev Abi1 : Nat := 5 * 4
@[inherit_doc Aba0] abbrev Abo0 : Nat := 6 * 4
@[inherit_doc Aba0] abbrev Abo1 : Nat := 7 * 4
@[inherit_doc Aba0] abbrev Abu0 : Nat := 8 * 4
@[inherit_doc Aba0] abbrev Abu1 : Nat := 9 * 4
@[inherit_doc Aba0] abbrev Aga0 : Nat := 10 * 4
@[inherit_doc Aba0] abbrev Aga1 : Nat := 11 * 4
@[inherit_doc Aba0] abbrev Age0 : Nat := 12 * 4
@[inherit_doc Aba0] abbrev Age1 : Nat := 13 * 4
@[inherit_doc Aba0] abbrev Agi0 : Nat := 14 * 4
@[inherit_doc Aba0] abbrev Agi1 : Nat := 15 * 4
@[inherit_doc Aba0] abbrev Ago0 : Nat := 16 * 4
@[inherit_doc Aba0] abbrev Ago1 : Nat := 17 * 4
@[inherit_doc Aba0] abbrev Agu0 : Nat := 18 * 4
@[inherit_doc Aba0] abbrev Agu1 : Nat := 19 * 4
@[inherit_doc Aba0] abbrev Aka0 : Nat := 20 * 4
@[inherit_doc Aba0] abbrev Aka1 : Nat := 21 * 4
@[inherit_doc Aba0] abbrev Ake0 : Nat := 22 * 4
@[inherit_doc Aba0] abbrev Ake1 : Nat := 23 * 4
@[inherit_doc Aba0] abbrev Aki0 : Nat := 24 * 4
@[inherit_doc Aba0] abbrev Aki1 : Nat := 25 * 4
@[inherit_doc Aba0] abbrev Ako0 : Nat := 26 * 4
@[inherit_doc Aba0] abbrev Ako1 : Nat := 27 * 4
@[inherit_doc Aba0] abbrev Aku0 : Nat := 28 * 4
@[inherit_doc Aba0] abbrev Aku1 : Nat := 29 * 4
@[inherit_doc Aba0] abbrev Ama0 : Nat := 30 * 4
@[inherit_doc Aba0] abbrev Ama1 : Nat := 31 * 4
@[inherit_doc Aba0] abbrev Ame0 : Nat := 32 * 4
@[inherit_doc Aba0] abbrev Ame1 : Nat := 33 * 4
@[inherit_doc Aba0] abbrev Ami0 : Nat := 34 * 4
@[inherit_doc Aba0] abbrev Ami1 : Nat := 35 * 4
@[inherit_doc Aba0] abbrev Amo0 : Nat := 36 * 4
@[inherit_doc Aba0] abbrev Amo1 : Nat := 37 * 4
@[inherit_doc Aba0] abbrev Amu0 : Nat := 38 * 4
@[inherit_doc Aba0] abbrev Amu1 : Nat := 39 * 4
@[inherit_doc Aba0] abbrev Asa0 : Nat := 40 * 4
@[inherit_doc Aba0] abbrev Asa1 : Nat := 41 * 4
@[inherit_doc Aba0] abbrev Ase0 : Nat := 42 * 4
@[inherit_doc Aba0] abbrev Ase1 : Nat := 43 * 4
@[inherit_doc Aba0] abbrev Asi0 : Nat := 44 * 4
@[inherit_doc Aba0] abbrev Asi1 : Nat := 45 * 4
@[inherit_doc Aba0] abbrev Aso0 : Nat := 46 * 4
@[inherit_doc Aba0] abbrev Aso1 : Nat := 47 * 4
@[inherit_doc Aba0] abbrev Asu0 : Nat := 48 * 4
@[inherit_doc Aba0] abbrev Asu1 : Nat := 49 * 4

/-- Offsets on the stack (lines 195-201). -/
abbrev mDa0 : Nat := 0 * 4
@[inherit_doc mDa0] abbrev mDa1 : Nat := 1 * 4
@[inherit_doc mDa0] abbrev mDo0 : Nat := 2 * 4
@[inherit_doc mDa0] abbrev mDo1 : Nat := 3 * 4
@[inherit_doc mDa0] abbrev mDi0 : Nat := 4 * 4
@[inherit_doc mDa0] abbrev mRC : Nat := 5 * 4
@[inherit_doc mDa0] abbrev mSize : Nat := 6 * 4

/-- `eors a, b, c` -/
def eors (a b c : Reg) : Ins := .s (.op2 .eor a b c .id)
/-- `bics a, b, c` -/
def bics (a b c : Reg) : Ins := .s (.op2 .bic a b c .id)
/-- `rors a, b` -/
def rors (a b : Reg) : Ins := .s (.op2 .ror a a b .id)

/-- The change of `r0` at the beginning of the macros `load` and `store` (lines 207-211, 224-228). -/
def adjust (prev curr : Nat) : List Ins :=
  if prev ≥ 32 * 4 ∧ curr < 32 * 4 then [.s (.addi .r0 .r0 (-128))]
  else if prev < 32 * 4 ∧ curr ≥ 32 * 4 then [.s (.addi .r0 .r0 128)]
  else []

/-- `load` (lines 205-220) -/
def load (result : Reg) (prev curr last : Nat) : List Ins :=
  adjust prev curr ++
  if curr ≥ 32 * 4 then
    [.ldr result .r0 (curr - 32 * 4 : Nat) .off] ++ (if last = 1 then [.s (.addi .r0 .r0 (-128))] else [])
  else [.ldr result .r0 curr .off]

/-- `store` (lines 222-237) -/
def store (result : Reg) (prev curr last : Nat) : List Ins :=
  adjust prev curr ++
  if curr ≥ 32 * 4 then
    [.str result .r0 (curr - 32 * 4 : Nat) .off] ++ (if last = 1 then [.s (.addi .r0 .r0 (-128))] else [])
  else [.str result .r0 curr .off]

/-- `xor5` (lines 239-250); the macro does not use its last two parameters. -/
def xor5 (result : Reg) (b g k m s : Nat) (_prev _last : Nat) : List Ins :=
  load result 0 b 0 ++
  load .r1 b g 0 ++ [eors result result .r1] ++
  load .r1 g k 0 ++ [eors result result .r1] ++
  load .r1 k m 0 ++ [eors result result .r1] ++
  load .r1 m s 1 ++ [eors result result .r1]

/-- `xorrol` (lines 252-256) -/
def xorrol (result aa bb : Reg) : List Ins := [.s (.op1 .id result bb), rors result .r2, eors result result aa]

/-- `xorrolR2` (lines 258-261) -/
def xorrolR2 (aa bb : Reg) : List Ins := [rors bb .r2, eors bb bb aa]

/-- `xorh` (lines 263-267) -/
def xorh (result aa bb : Reg) : List Ins := [.op1 .id .r1 bb, eors .r1 .r1 aa, .op1 .id result .r1]

/-- `xandnot` (lines 270-275) -/
def xandnot (resofs : Nat) (aa bb cc : Reg) (prev last : Nat) : List Ins :=
  [.s (.op1 .id .r1 cc), bics .r1 .r1 bb, eors .r1 .r1 aa] ++ store .r1 prev resofs last

/-- `xandnotR4` (lines 277-281) -/
def xandnotR4 (resofs : Nat) (aa bb cc : Reg) (prev last : Nat) : List Ins :=
  [bics cc cc bb, eors cc cc aa] ++ store cc prev resofs last

/-- `KeccakThetaRhoPiChiIota` (lines 283-323) -/
def KeccakThetaRhoPiChiIota (aA1 : Nat) (aDax : Reg) (aA2 : Nat) (aDex : Reg) (rot2 aA3 : Nat) (aDix : Reg) (rot3 aA4 : Nat) (aDox : Reg)
    (rot4 aA5 : Nat) (aDux : Reg) (rot5 offset last : Nat) : List Ins :=
  load .r3 0 aA1 0 ++ load .r4 aA1 aA2 0 ++ load .r5 aA2 aA3 0 ++ load .r6 aA3 aA4 0 ++ load .r7 aA4 aA5 0 ++
  [.op1 .id .r1 aDax, eors .r3 .r3 .r1, eors .r5 .r5 aDix, .op1 .id .r1 aDex, eors .r4 .r4 .r1, .op1 .id .r1 aDox, eors .r6 .r6 .r1,
    .op1 .id .r1 aDux, eors .r7 .r7 .r1, .s (.movi .r1 (32 - rot2)), rors .r4 .r1, .s (.movi .r1 (32 - rot3)), rors .r5 .r1,
    .s (.movi .r1 (32 - rot4)), rors .r6 .r1, .s (.movi .r1 (32 - rot5)), rors .r7 .r1] ++
  xandnot aA2 .r4 .r5 .r6 aA5 0 ++
  xandnot aA3 .r5 .r6 .r7 aA2 0 ++
  xandnot aA4 .r6 .r7 .r3 aA3 0 ++
  xandnot aA5 .r7 .r3 .r4 aA4 1 ++
  [.ldr .r1 .sp mRC .off, bics .r5 .r5 .r4, .ldr .r4 .r1 offset .off, eors .r3 .r3 .r5, eors .r3 .r3 .r4] ++
  (if last = 1 then [.s (.addi .r1 .r1 32), .ldr .r2 .r1 0 .off, .str .r1 .sp mRC .off, .cmpi .r2 0xFF] else []) ++
  [.str .r3 .r0 aA1 .off]

/-- `KeccakThetaRhoPiChi` (lines 325-358) -/
def KeccakThetaRhoPiChi (aB1 : Reg) (aA1 : Nat) (aDax : Reg) (rot1 : Nat) (aB2 : Reg) (aA2 : Nat) (aDex : Reg) (rot2 : Nat) (aB3 : Reg)
    (aA3 : Nat) (aDix : Reg) (rot3 : Nat) (aB4 : Reg) (aA4 : Nat) (aDox : Reg) (rot4 : Nat) (aB5 : Reg) (aA5 : Nat) (aDux : Reg)
    (rot5 : Nat) : List Ins :=
  load aB1 0 aA1 0 ++ load aB2 aA1 aA2 0 ++ load aB3 aA2 aA3 0 ++ load aB4 aA3 aA4 0 ++ load aB5 aA4 aA5 0 ++
  [.op1 .id .r1 aDax, eors aB1 aB1 .r1, eors aB3 aB3 aDix, .op1 .id .r1 aDex, eors aB2 aB2 .r1, .op1 .id .r1 aDox, eors aB4 aB4 .r1,
    .op1 .id .r1 aDux, eors aB5 aB5 .r1, .s (.movi .r1 (32 - rot1)), rors aB1 .r1] ++
  (if rot2 > 0 then [.s (.movi .r1 (32 - rot2)), rors aB2 .r1] else []) ++
  [.s (.movi .r1 (32 - rot3)), rors aB3 .r1, .s (.movi .r1 (32 - rot4)), rors aB4 .r1, .s (.movi .r1 (32 - rot5)), rors aB5 .r1] ++
  xandnot aA1 .r3 .r4 .r5 aA5 0 ++
  xandnot aA2 .r4 .r5 .r6 aA1 0 ++
  xandnotR4 aA5 .r7 .r3 .r4 aA2 0 ++
  xandnotR4 aA4 .r6 .r7 .r3 aA5 0 ++
  xandnotR4 aA3 .r5 .r6 .r7 aA4 1

/-- `KeccakRound0` (lines 360-420) -/
def KeccakRound0 : List Ins := List.flatten [
  [.s (.movi .r2 31)],
  xor5 .r3 Abu0 Agu0 Aku0 Amu0 Asu0 0 0,
  xor5 .r7 Abe1 Age1 Ake1 Ame1 Ase1 Asu0 0,
  xorrol .r6 .r3 .r7,
  [.str .r6 .sp mDa0 .off],
  xor5 .r6 Abu1 Agu1 Aku1 Amu1 Asu1 Ase1 0,
  xor5 .r5 Abe0 Age0 Ake0 Ame0 Ase0 Asu1 0,
  xorh .r8 .r6 .r5,
  [.op1 .id .lr .r5],
  [.str .r1 .sp mDa1 .off],
  xor5 .r5 Abi0 Agi0 Aki0 Ami0 Asi0 Ase0 0,
  xorrolR2 .r5 .r6,
  [.str .r6 .sp mDo0 .off],
  xor5 .r4 Abi1 Agi1 Aki1 Ami1 Asi1 Asi0 0,
  [.s (.op2 .eor .r3 .r3 .r4 .id)],
  [.str .r3 .sp mDo1 .off],
  xor5 .r3 Aba0 Aga0 Aka0 Ama0 Asa0 Asi1 0,
  xorrolR2 .r3 .r4,
  [.op1 .id .sl .r4],
  xor5 .r6 Aba1 Aga1 Aka1 Ama1 Asa1 Asa0 0,
  xorh .fp .r6 .r5,
  xor5 .r4 Abo1 Ago1 Ako1 Amo1 Aso1 Asa1 0,
  [.op1 .id .r1 .lr],
  xorrol .r5 .r1 .r4,
  [.str .r5 .sp mDi0 .off],
  xor5 .r5 Abo0 Ago0 Ako0 Amo0 Aso0 Aso1 1,
  [.s (.op2 .eor .r7 .r7 .r5 .id)],
  xorrolR2 .r5 .r6,
  [.op1 .id .ip .r6],
  [.s (.op2 .eor .r4 .r4 .r3 .id)],
  [.op1 .id .lr .r4],
  [.s (.op1 .id .r2 .r7)],
  [.ldr .r1 .sp mDo0 .off],
  [.op1 .id .r9 .r1],
  KeccakThetaRhoPiChi .r5 Aka1 .r8 2 .r6 Ame1 .fp 23 .r7 Asi1 .r2 31 .r3 Abo0 .r9 14 .r4 Agu0 .ip 10,
  KeccakThetaRhoPiChi .r7 Asa1 .r8 9 .r3 Abe0 .sl 0 .r4 Agi1 .r2 3 .r5 Ako0 .r9 12 .r6 Amu1 .lr 4,
  [.ldr .r1 .sp mDa0 .off],
  [.op1 .id .r8 .r1],
  KeccakThetaRhoPiChi .r4 Aga0 .r8 18 .r5 Ake0 .sl 5 .r6 Ami1 .r2 8 .r7 Aso0 .r9 28 .r3 Abu1 .lr 14,
  KeccakThetaRhoPiChi .r6 Ama0 .r8 20 .r7 Ase1 .fp 1 .r3 Abi1 .r2 31 .r4 Ago0 .r9 27 .r5 Aku0 .ip 19,
  [.ldr .r1 .sp mDo1 .off],
  [.op1 .id .r9 .r1],
  KeccakThetaRhoPiChiIota Aba0 .r8 Age0 .sl 22 Aki1 .r2 22 Amo1 .r9 11 Asu0 .ip 7 0 0,
  [.ldr .r2 .sp mDi0 .off],
  KeccakThetaRhoPiChi .r5 Aka0 .r8 1 .r6 Ame0 .sl 22 .r7 Asi0 .r2 30 .r3 Abo1 .r9 14 .r4 Agu1 .lr 10,
  KeccakThetaRhoPiChi .r7 Asa0 .r8 9 .r3 Abe1 .fp 1 .r4 Agi0 .r2 3 .r5 Ako1 .r9 13 .r6 Amu0 .ip 4,
  [.ldr .r1 .sp mDa1 .off],
  [.op1 .id .r8 .r1],
  KeccakThetaRhoPiChi .r4 Aga1 .r8 18 .r5 Ake1 .fp 5 .r6 Ami0 .r2 7 .r7 Aso1 .r9 28 .r3 Abu0 .ip 13,
  KeccakThetaRhoPiChi .r6 Ama1 .r8 21 .r7 Ase0 .sl 1 .r3 Abi0 .r2 31 .r4 Ago1 .r9 28 .r5 Aku1 .lr 20,
  [.ldr .r1 .sp mDo0 .off],
  [.op1 .id .r9 .r1],
  KeccakThetaRhoPiChiIota Aba1 .r8 Age1 .fp 22 Aki0 .r2 21 Amo0 .r9 10 Asu1 .lr 7 4 0]

/-- `KeccakRound1` (lines 422-483) -/
def KeccakRound1 : List Ins := List.flatten [
  [.s (.movi .r2 31)],
  xor5 .r3 Asu0 Agu0 Amu0 Abu1 Aku1 0 0,
  xor5 .r7 Age1 Ame0 Abe0 Ake1 Ase1 Aku1 0,
  xorrol .r6 .r3 .r7,
  [.str .r6 .sp mDa0 .off],
  xor5 .r6 Asu1 Agu1 Amu1 Abu0 Aku0 Ase1 0,
  xor5 .r5 Age0 Ame1 Abe1 Ake0 Ase0 Aku0 0,
  xorh .r8 .r6 .r5,
  [.op1 .id .lr .r5],
  [.str .r1 .sp mDa1 .off],
  xor5 .r5 Aki1 Asi1 Agi0 Ami1 Abi0 Ase0 0,
  xorrolR2 .r5 .r6,
  [.str .r6 .sp mDo0 .off],
  xor5 .r4 Aki0 Asi0 Agi1 Ami0 Abi1 Abi0 0,
  [.s (.op2 .eor .r3 .r3 .r4 .id)],
  [.str .r3 .sp mDo1 .off],
  xor5 .r3 Aba0 Aka1 Asa0 Aga0 Ama1 Abi1 0,
  xorrolR2 .r3 .r4,
  [.op1 .id .sl .r4],
  xor5 .r6 Aba1 Aka0 Asa1 Aga1 Ama0 Ama1 0,
  xorh .fp .r6 .r5,
  xor5 .r4 Amo0 Abo1 Ako0 Aso1 Ago0 Ama0 0,
  [.op1 .id .r1 .lr],
  xorrol .r5 .r1 .r4,
  [.str .r5 .sp mDi0 .off],
  xor5 .r5 Amo1 Abo0 Ako1 Aso0 Ago1 Ago0 1,
  [.s (.op2 .eor .r7 .r7 .r5 .id)],
  xorrolR2 .r5 .r6,
  [.op1 .id .ip .r6],
  [.s (.op2 .eor .r4 .r4 .r3 .id)],
  [.op1 .id .lr .r4],
  [.s (.op1 .id .r2 .r7)],
  [.ldr .r1 .sp mDo0 .off],
  [.op1 .id .r9 .r1],
  KeccakThetaRhoPiChi .r5 Asa1 .r8 2 .r6 Ake1 .fp 23 .r7 Abi1 .r2 31 .r3 Amo1 .r9 14 .r4 Agu0 .ip 10,
  KeccakThetaRhoPiChi .r7 Ama0 .r8 9 .r3 Age0 .sl 0 .r4 Asi0 .r2 3 .r5 Ako1 .r9 12 .r6 Abu0 .lr 4,
  [.ldr .r1 .sp mDa0 .off],
  [.op1 .id .r8 .r1],
  KeccakThetaRhoPiChi .r4 Aka1 .r8 18 .r5 Abe1 .sl 5 .r6 Ami0 .r2 8 .r7 Ago1 .r9 28 .r3 Asu1 .lr 14,
  KeccakThetaRhoPiChi .r6 Aga0 .r8 20 .r7 Ase1 .fp 1 .r3 Aki0 .r2 31 .r4 Abo0 .r9 27 .r5 Amu0 .ip 19,
  [.ldr .r1 .sp mDo1 .off],
  [.op1 .id .r9 .r1],
  KeccakThetaRhoPiChiIota Aba0 .r8 Ame1 .sl 22 Agi1 .r2 22 Aso1 .r9 11 Aku1 .ip 7 8 0,
  [.ldr .r2 .sp mDi0 .off],
  KeccakThetaRhoPiChi .r5 Asa0 .r8 1 .r6 Ake0 .sl 22 .r7 Abi0 .r2 30 .r3 Amo0 .r9 14 .r4 Agu1 .lr 10,
  KeccakThetaRhoPiChi .r7 Ama1 .r8 9 .r3 Age1 .fp 1 .r4 Asi1 .r2 3 .r5 Ako0 .r9 13 .r6 Abu1 .ip 4,
  [.ldr .r1 .sp mDa1 .off],
  [.op1 .id .r8 .r1],
  KeccakThetaRhoPiChi .r4 Aka0 .r8 18 .r5 Abe0 .fp 5 .r6 Ami1 .r2 7 .r7 Ago0 .r9 28 .r3 Asu0 .ip 13,
  KeccakThetaRhoPiChi .r6 Aga1 .r8 21 .r7 Ase0 .sl 1 .r3 Aki1 .r2 31 .r4 Abo1 .r9 28 .r5 Amu1 .lr 20,
  [.ldr .r1 .sp mDo0 .off],
  [.op1 .id .r9 .r1],
  KeccakThetaRhoPiChiIota Aba1 .r8 Ame0 .fp 22 Agi0 .r2 21 Aso0 .r9 10 Aku0 .lr 7 12 0]

/-- `KeccakRound2` (lines 485-546) -/
def KeccakRound2 : List Ins := List.flatten [
  [.s (.movi .r2 31)],
  xor5 .r3 Aku1 Agu0 Abu1 Asu1 Amu1 0 0,
  xor5 .r7 Ame0 Ake0 Age0 Abe0 Ase1 Amu1 0,
  xorrol .r6 .r3 .r7,
  [.str .r6 .sp mDa0 .off],
  xor5 .r6 Aku0 Agu1 Abu0 Asu0 Amu0 Ase1 0,
  xor5 .r5 Ame1 Ake1 Age1 Abe1 Ase0 Amu0 0,
  xorh .r8 .r6 .r5,
  [.op1 .id .lr .r5],
  [.str .r1 .sp mDa1 .off],
  xor5 .r5 Agi1 Abi1 Asi1 Ami0 Aki1 Ase0 0,
  xorrolR2 .r5 .r6,
  [.str .r6 .sp mDo0 .off],
  xor5 .r4 Agi0 Abi0 Asi0 Ami1 Aki0 Aki1 0,
  [.s (.op2 .eor .r3 .r3 .r4 .id)],
  [.str .r3 .sp mDo1 .off],
  xor5 .r3 Aba0 Asa1 Ama1 Aka1 Aga1 Aki0 0,
  xorrolR2 .r3 .r4,
  [.op1 .id .sl .r4],
  xor5 .r6 Aba1 Asa0 Ama0 Aka0 Aga0 Aga1 0,
  xorh .fp .r6 .r5,
  xor5 .r4 Aso0 Amo0 Ako1 Ago0 Abo0 Aga0 0,
  [.op1 .id .r1 .lr],
  xorrol .r5 .r1 .r4,
  [.str .r5 .sp mDi0 .off],
  xor5 .r5 Aso1 Amo1 Ako0 Ago1 Abo1 Abo0 1,
  [.s (.op2 .eor .r7 .r7 .r5 .id)],
  xorrolR2 .r5 .r6,
  [.op1 .id .ip .r6],
  [.s (.op2 .eor .r4 .r4 .r3 .id)],
  [.op1 .id .lr .r4],
  [.s (.op1 .id .r2 .r7)],
  [.ldr .r1 .sp mDo0 .off],
  [.op1 .id .r9 .r1],
  KeccakThetaRhoPiChi .r5 Ama0 .r8 2 .r6 Abe0 .fp 23 .r7 Aki0 .r2 31 .r3 Aso1 .r9 14 .r4 Agu0 .ip 10,
  KeccakThetaRhoPiChi .r7 Aga0 .r8 9 .r3 Ame1 .sl 0 .r4 Abi0 .r2 3 .r5 Ako0 .r9 12 .r6 Asu0 .lr 4,
  [.ldr .r1 .sp mDa0 .off],
  [.op1 .id .r8 .r1],
  KeccakThetaRhoPiChi .r4 Asa1 .r8 18 .r5 Age1 .sl 5 .r6 Ami1 .r2 8 .r7 Abo1 .r9 28 .r3 Aku0 .lr 14,
  KeccakThetaRhoPiChi .r6 Aka1 .r8 20 .r7 Ase1 .fp 1 .r3 Agi0 .r2 31 .r4 Amo1 .r9 27 .r5 Abu1 .ip 19,
  [.ldr .r1 .sp mDo1 .off],
  [.op1 .id .r9 .r1],
  KeccakThetaRhoPiChiIota Aba0 .r8 Ake1 .sl 22 Asi0 .r2 22 Ago0 .r9 11 Amu1 .ip 7 16 0,
  [.ldr .r2 .sp mDi0 .off],
  KeccakThetaRhoPiChi .r5 Ama1 .r8 1 .r6 Abe1 .sl 22 .r7 Aki1 .r2 30 .r3 Aso0 .r9 14 .r4 Agu1 .lr 10,
  KeccakThetaRhoPiChi .r7 Aga1 .r8 9 .r3 Ame0 .fp 1 .r4 Abi1 .r2 3 .r5 Ako1 .r9 13 .r6 Asu1 .ip 4,
  [.ldr .r1 .sp mDa1 .off],
  [.op1 .id .r8 .r1],
  KeccakThetaRhoPiChi .r4 Asa0 .r8 18 .r5 Age0 .fp 5 .r6 Ami0 .r2 7 .r7 Abo0 .r9 28 .r3 Aku1 .ip 13,
  KeccakThetaRhoPiChi .r6 Aka0 .r8 21 .r7 Ase0 .sl 1 .r3 Agi1 .r2 31 .r4 Amo0 .r9 28 .r5 Abu0 .lr 20,
  [.ldr .r1 .sp mDo0 .off],
  [.op1 .id .r9 .r1],
  KeccakThetaRhoPiChiIota Aba1 .r8 Ake0 .fp 22 Asi1 .r2 21 Ago1 .r9 10 Amu0 .lr 7 20 0]

/-- `KeccakRound3` (lines 548-609) -/
def KeccakRound3 : List Ins := List.flatten [
  [.s (.movi .r2 31)],
  xor5 .r3 Amu1 Agu0 Asu1 Aku0 Abu0 0 0,
  xor5 .r7 Ake0 Abe1 Ame1 Age0 Ase1 Abu0 0,
  xorrol .r6 .r3 .r7,
  [.str .r6 .sp mDa0 .off],
  xor5 .r6 Amu0 Agu1 Asu0 Aku1 Abu1 Ase1 0,
  xor5 .r5 Ake1 Abe0 Ame0 Age1 Ase0 Abu1 0,
  xorh .r8 .r6 .r5,
  [.op1 .id .lr .r5],
  [.str .r1 .sp mDa1 .off],
  xor5 .r5 Asi0 Aki0 Abi1 Ami1 Agi1 Ase0 0,
  xorrolR2 .r5 .r6,
  [.str .r6 .sp mDo0 .off],
  xor5 .r4 Asi1 Aki1 Abi0 Ami0 Agi0 Agi1 0,
  [.s (.op2 .eor .r3 .r3 .r4 .id)],
  [.str .r3 .sp mDo1 .off],
  xor5 .r3 Aba0 Ama0 Aga1 Asa1 Aka0 Agi0 0,
  xorrolR2 .r3 .r4,
  [.op1 .id .sl .r4],
  xor5 .r6 Aba1 Ama1 Aga0 Asa0 Aka1 Aka0 0,
  xorh .fp .r6 .r5,
  xor5 .r4 Ago1 Aso0 Ako0 Abo0 Amo1 Aka1 0,
  [.op1 .id .r1 .lr],
  xorrol .r5 .r1 .r4,
  [.str .r5 .sp mDi0 .off],
  xor5 .r5 Ago0 Aso1 Ako1 Abo1 Amo0 Amo1 1,
  [.s (.op2 .eor .r7 .r7 .r5 .id)],
  xorrolR2 .r5 .r6,
  [.op1 .id .ip .r6],
  [.s (.op2 .eor .r4 .r4 .r3 .id)],
  [.op1 .id .lr .r4],
  [.s (.op1 .id .r2 .r7)],
  [.ldr .r1 .sp mDo0 .off],
  [.op1 .id .r9 .r1],
  KeccakThetaRhoPiChi .r5 Aga0 .r8 2 .r6 Age0 .fp 23 .r7 Agi0 .r2 31 .r3 Ago0 .r9 14 .r4 Agu0 .ip 10,
  KeccakThetaRhoPiChi .r7 Aka1 .r8 9 .r3 Ake1 .sl 0 .r4 Aki1 .r2 3 .r5 Ako1 .r9 12 .r6 Aku1 .lr 4,
  [.ldr .r1 .sp mDa0 .off],
  [.op1 .id .r8 .r1],
  KeccakThetaRhoPiChi .r4 Ama0 .r8 18 .r5 Ame0 .sl 5 .r6 Ami0 .r2 8 .r7 Amo0 .r9 28 .r3 Amu0 .lr 14,
  KeccakThetaRhoPiChi .r6 Asa1 .r8 20 .r7 Ase1 .fp 1 .r3 Asi1 .r2 31 .r4 Aso1 .r9 27 .r5 Asu1 .ip 19,
  [.ldr .r1 .sp mDo1 .off],
  [.op1 .id .r9 .r1],
  KeccakThetaRhoPiChiIota Aba0 .r8 Abe0 .sl 22 Abi0 .r2 22 Abo0 .r9 11 Abu0 .ip 7 24 0,
  [.ldr .r2 .sp mDi0 .off],
  KeccakThetaRhoPiChi .r5 Aga1 .r8 1 .r6 Age1 .sl 22 .r7 Agi1 .r2 30 .r3 Ago1 .r9 14 .r4 Agu1 .lr 10,
  KeccakThetaRhoPiChi .r7 Aka0 .r8 9 .r3 Ake0 .fp 1 .r4 Aki0 .r2 3 .r5 Ako0 .r9 13 .r6 Aku0 .ip 4,
  [.ldr .r1 .sp mDa1 .off],
  [.op1 .id .r8 .r1],
  KeccakThetaRhoPiChi .r4 Ama1 .r8 18 .r5 Ame1 .fp 5 .r6 Ami1 .r2 7 .r7 Amo1 .r9 28 .r3 Amu1 .ip 13,
  KeccakThetaRhoPiChi .r6 Asa0 .r8 21 .r7 Ase0 .sl 1 .r3 Asi0 .r2 31 .r4 Aso0 .r9 28 .r5 Asu0 .lr 20,
  [.ldr .r1 .sp mDo0 .off],
  [.op1 .id .r9 .r1],
  KeccakThetaRhoPiChiIota Aba1 .r8 Abe1 .fp 22 Abi1 .r2 21 Abo1 .r9 10 Abu1 .lr 7 28 1]

/-- `KeccakF1600_StatePermute_RoundConstantsWithTerminator` (lines 1015-1048): for every round two words, and the terminator. -/
def roundConstants : List (BitVec 32) := [
  0x00000001, 0x00000000, 0x00000000, 0x00000089, 0x00000000, 0x8000008b, 0x00000000, 0x80008080,
  0x00000001, 0x0000008b, 0x00000001, 0x00008000, 0x00000001, 0x80008088, 0x00000001, 0x80000082,
  0x00000000, 0x0000000b, 0x00000000, 0x0000000a, 0x00000001, 0x00008082, 0x00000000, 0x00008003,
  0x00000001, 0x0000808b, 0x00000001, 0x8000000b, 0x00000001, 0x8000008a, 0x00000001, 0x80000081,
  0x00000000, 0x80000081, 0x00000000, 0x80000008, 0x00000000, 0x00000083, 0x00000000, 0x80008003,
  0x00000001, 0x80008088, 0x00000000, 0x80000088, 0x00000001, 0x00008000, 0x00000000, 0x80008082,
  0x000000FF]

/-- `KeccakP1600_StatePermute` up to the loop (lines 1055-1063) -/
def prologue : List Ins :=
  [.push [.r4, .r5, .r6, .lr], .op1 .id .r2 .r8, .op1 .id .r3 .r9, .op1 .id .r4 .sl, .op1 .id .r5 .fp, .op1 .id .r6 .ip,
    .push [.r2, .r3, .r4, .r5, .r6, .r7], .addi .sp .sp (-24), .str .r1 .sp mRC .off]

/-- The loop (lines 1064-1071): `beq Done` leaves it, and otherwise the address of its beginning is loaded to `r1` for `bx r1`. -/
def roundLoop : List Ins := KeccakRound0 ++ KeccakRound1 ++ KeccakRound2 ++ KeccakRound3 ++ [.ne (.ldc .r1 1064)]

/-- `KeccakP1600_StatePermute` after the loop (lines 1073-1080) -/
def epilogue : List Ins :=
  [.addi .sp .sp 24, .pop [.r1, .r2, .r3, .r4, .r5, .r7], .op1 .id .r8 .r1, .op1 .id .r9 .r2, .op1 .id .sl .r3, .op1 .id .fp .r4,
    .op1 .id .ip .r5, .pop [.r4, .r5, .r6, .pc]]

/-- `KeccakP1600_StatePermute` (lines 1054-1080) -/
def KeccakP1600_StatePermute : List Stmt := [.ins prologue, .loop roundLoop, .ins epilogue]

/-- `KeccakF1600_StatePermute` (lines 1009-1011): the address of the constants, which are object 1, is put in `r1`. -/
def permF (D : Dom) (s : State D) : Option (State D) := run (fun _ _ => none) 0 KeccakP1600_StatePermute (s.set .r1 (.a (.ptr 1 0)))

/-- An array of words in memory, little endian. -/
def words : List (BitVec 32) → List (Cell (BitVec 16))
  | [] => []
  | x :: l => .half (clo x) :: .half (chi x) :: words l

/-- An array of words read from memory. -/
def unwords : List (Cell (BitVec 16)) → Option (List (BitVec 32))
  | .half l :: .half h :: t => match unwords t with
    | some a => some ((h ++ l) :: a)
    | none => none
  | [] => some []
  | _ => none

/-- The state at the call: the argument is in `r0`, the return address is `code 99`, and all other registers are arbitrary. -/
def permStart (g : Reg → Val conc.W) (st : List (BitVec 32)) (stk : List (Cell (BitVec 16))) : State conc where
  r0 := .a (.ptr 0 0)
  r1 := g .r1
  r2 := g .r2
  r3 := g .r3
  r4 := g .r4
  r5 := g .r5
  r6 := g .r6
  r7 := g .r7
  r8 := g .r8
  r9 := g .r9
  sl := g .sl
  fp := g .fp
  ip := g .ip
  sp := .a (.ptr 2 (2 * stk.length))
  lr := .a (.code 99)
  pc := g .pc
  mem := [words st, words roundConstants, stk]
  fl := ⟨none, none⟩

/-- The words of an array of lanes in memory, little endian (`uint64_t s[25]` of fips202.c). -/
def wordsOfLanes : List (BitVec 64) → List (BitVec 32)
  | [] => []
  | x :: l => x.setWidth 32 :: (x >>> 32).setWidth 32 :: wordsOfLanes l

/-- An array of lanes read from memory. -/
def lanesOfWords : List (BitVec 32) → List (BitVec 64)
  | x :: y :: l => (y ++ x) :: lanesOfWords l
  | _ => []

/-- `KeccakF1600_StatePermute` as a function on the contents of the array of the caller. -/
def perm_asm (g : Reg → Val conc.W) (stk : List (Cell (BitVec 16))) (s : List (BitVec 64)) : CM (List (BitVec 64)) :=
  match permF conc (permStart g (wordsOfLanes s) stk) with
  | some t => match (t.mem : List (List (Cell (BitVec 16)))) with
    | [a, _, _] => match unwords a with
      | some a => .ok (lanesOfWords a)
      | none => .error .oob
    | _ => .error .oob
  | none => .error .oob

end Saber.Arm.Keccak
