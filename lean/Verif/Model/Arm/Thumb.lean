import Verif.Model.Arm.Machine
import Verif.CSem
/-!
# The part of the ARMv6-M instruction set used by the byte functions of `asm_KeccakF-1600.S`

This file models no function of the repository.  It gives the meaning of the instructions, after the ARMv6-M Architecture Reference Manual.
In contrast to `Model/Arm/Machine.lean`, memory is addressed by 32-bit words and consists of bytes, some of which are not accessible (`none`), and
pointers are ordinary words, because the functions test the alignment of pointers and access single bytes.  An access to a byte that is not accessible,
or of a word at an address that is not a multiple of 4, stops the machine (`none`).
-/
namespace Saber.Thumb
open Arm (Reg)

/-- A word. -/
abbrev W := BitVec 32

/-- Memory: the accessible bytes. -/
abbrev Mem := Nat → Option Byte

/-- Registers, memory and flags: `z` is the result "zero", `le` the result "less or equal" of a comparison (`none` after other instructions). -/
structure St where
  r : Reg → W
  m : Mem
  z : Bool
  le : Option Bool

/-- Write a register. -/
def upd (r : Reg → W) (d : Reg) (v : W) : Reg → W := fun x => if x = d then v else r x

/-- Write one byte. -/
def st8 (m : Mem) (a : Nat) (v : Byte) : Option Mem :=
  if (m a).isSome then some fun x => if x = a then some v else m x else none

/-- Four bytes as a word, little endian. -/
def cat (b0 b1 b2 b3 : Byte) : W := (b3 ++ b2) ++ (b1 ++ b0)

/-- Load a word. -/
def ld32 (m : Mem) (a : Nat) : Option W :=
  if a % 4 = 0 then
    match m a, m (a + 1), m (a + 2), m (a + 3) with
    | some b0, some b1, some b2, some b3 => some (cat b0 b1 b2 b3)
    | _, _, _, _ => none
  else none

/-- Byte `i` of a word. -/
def byteOf (v : W) (i : Nat) : Byte := v.extractLsb' (8 * i) 8

/-- Store a word. -/
def st32 (m : Mem) (a : Nat) (v : W) : Option Mem :=
  if a % 4 = 0 ∧ (m a).isSome ∧ (m (a + 1)).isSome ∧ (m (a + 2)).isSome ∧ (m (a + 3)).isSome then
    some fun x => if a ≤ x ∧ x < a + 4 then some (byteOf v (x - a)) else m x
  else none

/-- Load registers from consecutive words. -/
def ldRegs (m : Mem) (a : W) : List Reg → (Reg → W) → Option (Reg → W)
  | [], r => some r
  | x :: l, r => match ld32 m a.toNat with
    | some v => ldRegs m (a + 4) l (upd r x v)
    | none => none

/-- Store registers to consecutive words. -/
def stRegs (r : Reg → W) (a : W) : List Reg → Mem → Option Mem
  | [], m => some m
  | x :: l, m => match st32 m a.toNat (r x) with
    | some m => stRegs r (a + 4) l m
    | none => none

/-- Operations on two registers; all of them set the flags. -/
inductive Alu | and | orr | eor | add | sub | lsl
  deriving DecidableEq

/-- The result of an operation. -/
def Alu.eval : Alu → W → W → W
  | .and, x, y => x &&& y
  | .orr, x, y => x ||| y
  | .eor, x, y => x ^^^ y
  | .add, x, y => x + y
  | .sub, x, y => x - y
  | .lsl, x, y => x <<< (y &&& 255).toNat

/-- The two tables of constants in the code. -/
inductive Tab | to | from
  deriving DecidableEq

/-- Instructions other than jumps.  `mov` and `add` leave the flags alone, the others (except for loads and stores) set them.  `adr` gives the address of a
table. -/
inductive Op
  | mov (d s : Reg)
  | movs (d s : Reg)
  | movi (d : Reg) (imm : Nat)
  | alu (o : Alu) (d n m : Reg)
  | lsls (d m : Reg) (n : Nat)
  | lsrs (d m : Reg) (n : Nat)
  | adds (d n : Reg) (imm : Nat)
  | subs (d n : Reg) (imm : Nat)
  | add (d n m : Reg)
  | addi (d n : Reg) (imm : Nat)
  | cmpi (n : Reg) (imm : Nat)
  | cmp (n m : Reg)
  | adr (d : Reg) (t : Tab)
  | ldr (d n : Reg) (off : Nat)
  | str (d n : Reg) (off : Nat)
  | ldrb (d n : Reg) (off : Nat)
  | strb (d n : Reg) (off : Nat)
  | ldm (n : Reg) (l : List Reg)
  | stm (n : Reg) (l : List Reg)
  | push (l : List Reg)
  | pop (l : List Reg)
  | nop
  deriving DecidableEq

/-- Where the two tables are. -/
abbrev Tabs := Tab → W

/-- The state after writing a result that sets the flags. -/
def St.res (s : St) (d : Reg) (v : W) : St := ⟨upd s.r d v, s.m, v == 0, none⟩

/-- One instruction other than a jump. -/
def exec1 (T : Tabs) : Op → St → Option St
  | .mov d x, s => some { s with r := upd s.r d (s.r x) }
  | .movs d x, s => some (s.res d (s.r x))
  | .movi d n, s => some (s.res d (BitVec.ofNat 32 n))
  | .alu o d n m, s => some (s.res d (o.eval (s.r n) (s.r m)))
  | .lsls d m n, s => some (s.res d (s.r m <<< n))
  | .lsrs d m n, s => some (s.res d (s.r m >>> n))
  | .adds d n i, s => some (s.res d (s.r n + BitVec.ofNat 32 i))
  | .subs d n i, s => some (s.res d (s.r n - BitVec.ofNat 32 i))
  | .add d n m, s => some { s with r := upd s.r d (s.r n + s.r m) }
  | .addi d n i, s => some { s with r := upd s.r d (s.r n + BitVec.ofNat 32 i) }
  | .cmpi n i, s => some { s with z := s.r n == BitVec.ofNat 32 i, le := some ((s.r n).sle (BitVec.ofNat 32 i)) }
  | .cmp n m, s => some { s with z := s.r n == s.r m, le := some ((s.r n).sle (s.r m)) }
  | .adr d t, s => some { s with r := upd s.r d (T t) }
  | .ldr d n o, s => match ld32 s.m (s.r n + BitVec.ofNat 32 o).toNat with
    | some v => some { s with r := upd s.r d v }
    | none => none
  | .str d n o, s => match st32 s.m (s.r n + BitVec.ofNat 32 o).toNat (s.r d) with
    | some m => some { s with m := m }
    | none => none
  | .ldrb d n o, s => match s.m (s.r n + BitVec.ofNat 32 o).toNat with
    | some v => some { s with r := upd s.r d (v.setWidth 32) }
    | none => none
  | .strb d n o, s => match st8 s.m (s.r n + BitVec.ofNat 32 o).toNat ((s.r d).setWidth 8) with
    | some m => some { s with m := m }
    | none => none
  | .ldm n l, s => match ldRegs s.m (s.r n) l s.r with
    | some r => some { s with r := upd r n (s.r n + BitVec.ofNat 32 (4 * l.length)) }
    | none => none
  | .stm n l, s => match stRegs s.r (s.r n) l s.m with
    | some m => some { s with m := m, r := upd s.r n (s.r n + BitVec.ofNat 32 (4 * l.length)) }
    | none => none
  | .push l, s => match stRegs s.r (s.r .sp - BitVec.ofNat 32 (4 * l.length)) l s.m with
    | some m => some { s with m := m, r := upd s.r .sp (s.r .sp - BitVec.ofNat 32 (4 * l.length)) }
    | none => none
  | .pop l, s => match ldRegs s.m (s.r .sp) l s.r with
    | some r => some { s with r := upd r .sp (s.r .sp + BitVec.ofNat 32 (4 * l.length)) }
    | none => none
  | .nop, s => some s

/-- Several instructions other than jumps. -/
def execs (T : Tabs) : List Op → St → Option St
  | [], s => some s
  | i :: l, s => match exec1 T i s with
    | some s => execs T l s
    | none => none

/-- Instructions, with labels from `L`.  `bl l r`: call `l`; `r` is the label of the next instruction.  `popPC l` is `pop {l, pc}`. -/
inductive Ins (L : Type)
  | op (o : Op)
  | b (l : L)
  | beq (l : L)
  | bne (l : L)
  | ble (l : L)
  | bl (l r : L)
  | bx (m : Reg)
  | popPC (l : List Reg)

/-- A program: the instructions from a label to the end, the address of a label, and the addresses of the tables. -/
structure Prog (L : Type) where
  code : L → List (Ins L)
  addr : L → W
  tabs : Tabs
  labels : List L

/-- A running machine, with the instructions that follow; or one that has jumped to an address outside of the program. -/
inductive Conf (L : Type)
  | run (k : List (Ins L)) (s : St)
  | left (pc : W) (s : St)

variable {L : Type}

/-- A jump to an address. -/
def Prog.jump (P : Prog L) (a : W) (s : St) : Conf L :=
  match P.labels.find? (fun l => P.addr l == a) with
  | some l => .run (P.code l) s
  | none => .left a s

/-- One step of the machine. -/
def Prog.step (P : Prog L) : Conf L → Option (Conf L)
  | .left _ _ => none
  | .run [] _ => none
  | .run (.op o :: k) s => (exec1 P.tabs o s).map (.run k)
  | .run (.b l :: _) s => some (.run (P.code l) s)
  | .run (.beq l :: k) s => some (.run (if s.z then P.code l else k) s)
  | .run (.bne l :: k) s => some (.run (if s.z then k else P.code l) s)
  | .run (.ble l :: k) s => s.le.map fun c => .run (if c then P.code l else k) s
  | .run (.bl l r :: _) s => some (.run (P.code l) { s with r := upd s.r .lr (P.addr r) })
  | .run (.bx m :: _) s => some (P.jump (s.r m) s)
  | .run (.popPC l :: _) s => match ldRegs s.m (s.r .sp) l s.r with
    | some r => match ld32 s.m (s.r .sp + BitVec.ofNat 32 (4 * l.length)).toNat with
      | some a => some (P.jump a { s with r := upd r .sp (s.r .sp + BitVec.ofNat 32 (4 * l.length + 4)) })
      | none => none
    | none => none

/-- The machine gets from one configuration to another one in some number of steps. -/
inductive Prog.Reach (P : Prog L) : Conf L → Conf L → Prop
  | refl (c : Conf L) : P.Reach c c
  | step {c c' c'' : Conf L} (h : P.step c = some c') (t : P.Reach c' c'') : P.Reach c c''

end Saber.Thumb
