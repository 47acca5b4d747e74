import Verif.Proof.Arm.KDom
/-!
# Symbolic execution of the assembly: linear forms modulo powers of two

A halfword is represented by a linear form in integer variables, known modulo `2^k`, or by a constant.
-/
namespace Saber.Arm

/-- A linear form: variables in increasing order, with coefficients below `2^16`. -/
abbrev LF := List (Nat × Nat)

def consF (v c : Nat) (l : LF) : LF := match c with
  | 0 => l
  | .succ c => (v, c.succ) :: l

def mergeF (v c : Nat) (rec : LF → LF) : LF → LF
  | [] => (v, c) :: rec []
  | (w, d) :: b => match Nat.blt v w with
    | true => (v, c) :: rec ((w, d) :: b)
    | false => match Nat.beq v w with
      | true => consF v ((c.add d).mod 65536) (rec b)
      | false => (w, d) :: mergeF v c rec b

def LF.add : LF → LF → LF
  | [], b => b
  | (v, c) :: l, b => mergeF v c (LF.add l) b

def LF.scale (n : Nat) : LF → LF
  | [] => []
  | (v, c) :: l => consF v ((c.mul n).mod 65536) (LF.scale n l)

/-- Division of all coefficients, which must be possible without remainder. -/
def LF.quo (n : Nat) : LF → Option LF
  | [] => some []
  | (v, c) :: l => match Nat.beq (c.mod n) 0 with
    | true => match LF.quo n l with
      | some l => some ((v, c.div n) :: l)
      | none => none
    | false => none

def LF.eq : LF → LF → Bool
  | [], [] => true
  | (v, c) :: l, (w, d) :: m => Nat.beq v w && (Nat.beq c d && LF.eq l m)
  | _, _ => false

def LF.force {α : Type} : LF → (LF → α) → α
  | [], k => k []
  | (v, c) :: l, k => forceN v fun v => forceN c fun c => LF.force l fun l => k ((v, c) :: l)

/-- Symbolic halfwords. -/
inductive LH
  | lin (k : Nat) (l : LF)
  | c (n : Nat)
  | unk

def LH.force {α : Type} (h : LH) (k : LH → α) : α :=
  match h with
  | .lin m l => forceN m fun m => l.force fun l => k (.lin m l)
  | .c n => forceN n fun n => k (.c n)
  | .unk => k .unk

def minN (a b : Nat) : Nat := match Nat.ble a b with
  | true => a
  | false => b

def LH.add : LH → LH → LH
  | .lin k l, .lin k' l' => .lin (minN k k') (l.add l')
  | .lin k l, .c 0 => .lin k l
  | .c 0, .lin k l => .lin k l
  | .c m, .c n => .c ((m.add n).mod 65536)
  | _, _ => .unk

/-- The precision gained when a number is multiplied by `n`. -/
def gain (k n : Nat) : Nat := match Nat.beq (n.mod 2) 0 with
  | true => minN k.succ 16
  | false => k

/-- Multiplication by a constant. -/
def LH.scale (n : Nat) : LH → LH
  | .lin k l => .lin (gain k n) (l.scale n)
  | .c m => .c ((m.mul n).mod 65536)
  | .unk => .unk

def LH.sub (a b : LH) : LH := a.add (b.scale 65535)

def LH.mul (a : LH) : LH → LH
  | .c n => a.scale n
  | _ => .unk

/-- Shift to the right. -/
def LH.shr (n : Nat) : LH → LH
  | .lin k l => match Nat.ble n k with
    | true => match l.quo (Nat.pow 2 n) with
      | some l => .lin (k.sub n) l
      | none => .unk
    | false => .unk
  | _ => .unk

/-- The difference of the values at -1 and 1, for which the bit lost in a division by two is recorded as a new variable. -/
def diffF (i : Nat) : LF := [(Nat.add 1152 i, 65534), (Nat.add 1408 i, 65534), (Nat.add 1664 i, 65534)]

def LF.diffIx : LF → Option Nat
  | [] => none
  | (v, c) :: l => match Nat.ble 1152 v && (Nat.blt v 1280 && LF.eq ((v, c) :: l) (diffF (v.sub 1152))) with
    | true => some (v.sub 1152)
    | false => none

def halfF (e i : Nat) : LF := [(Nat.add 1152 i, 32767), (Nat.add 1408 i, 32767), (Nat.add 1664 i, 32767), (Nat.add e i, 32768)]

/-- Shift to the right by `n`, where variable `e + i` is the bit lost for `diffF i`. -/
def LH.shrE (e n : Nat) : LH → LH
  | .lin k l => match Nat.beq n 1 && Nat.beq k 16 with
    | true => match l.diffIx with
      | some i => .lin 16 (halfF e i)
      | none => LH.shr n (.lin k l)
    | false => LH.shr n (.lin k l)
  | h => LH.shr n h

/-- The lower 13 bits. -/
def LH.low13 : LH → LH
  | .lin k l => .lin (minN k 13) l
  | _ => .unk

/-- Symbolic words: two halfwords or a constant. -/
inductive LW
  | hh (lo hi : LH)
  | cst (n : Nat)

def LW.lo : LW → LH
  | .hh l _ => l
  | .cst n => .c (n.mod 65536)

def LW.hi : LW → LH
  | .hh _ h => h
  | .cst n => .c ((n.div 65536).mod 65536)

def lop1 : Op1 → LW → LW
  | .id, x => x
  | .lsl n, .cst x => match Nat.ble n 16 with
    | true => .cst ((x.mul (Nat.pow 2 n)).mod 4294967296)
    | false => .hh .unk .unk
  | .lsl n, .hh l _ => match Nat.ble n 15 with
    | true => .hh (l.scale (Nat.pow 2 n)) .unk
    | false => match Nat.ble n 31 with
      | true => .hh (.c 0) (l.scale (Nat.pow 2 (n.sub 16)))
      | false => .hh .unk .unk
  | .lsr n, .hh l h => match Nat.ble n 15 with
    | true => match h with
      | .c 0 => .hh (l.shrE 8192 n) (.c 0)
      | h => .hh (l.shr n) (h.shrE 8192 n)
    | false => match Nat.beq n 16 with
      | true => .hh h (.c 0)
      | false => .hh .unk .unk
  | .asr n, .hh _ h => match Nat.ble 16 n && Nat.ble n 31 with
    | true => .hh (h.shrE 9216 (n.sub 16)) .unk
    | false => .hh .unk .unk
  | .ubfx 0 13, .hh l _ => .hh l.low13 (.c 0)
  | _, _ => .hh .unk .unk

def lop2 : Op2 → LW → LW → LW
  | .add, .cst x, .cst y => .cst ((x.add y).mod 4294967296)
  | .and, .hh l h, .cst n => match Nat.beq n 536813567 with
    | true => .hh l.low13 h.low13
    | false => .hh .unk .unk
  | .uadd16, x, y => .hh (x.lo.add y.lo) (x.hi.add y.hi)
  | .usub16, x, y => .hh (x.lo.sub y.lo) (x.hi.sub y.hi)
  | .smulbb, x, y => .hh (x.lo.mul y.lo) .unk
  | .smultb, x, y => .hh (x.hi.mul y.lo) .unk
  | .pkhbt, x, y => .hh x.lo y.hi
  | .pkhtb, x, y => .hh y.lo x.hi
  | _, _, _ => .hh .unk .unk

def LW.force {α : Type} (w : LW) (k : LW → α) : α :=
  match w with
  | .hh l h => l.force fun l => h.force fun h => k (.hh l h)
  | .cst n => forceN n fun n => k (.cst n)

/-- The symbolic machine. -/
def ldom : Dom where
  W := LW
  H := LH
  M := KM LH
  lo := LW.lo
  hi := LW.hi
  join l h := .hh l h
  zero := .c 0
  const n := .cst (n.mod 4294967296)
  known
    | .cst n => some n
    | _ => none
  op1 := lop1
  op2 := lop2
  op3 _ _ _ _ := .hh .unk .unk
  rd := KM.rd
  wr m o i c := KM.wrK m o i c some
  force := LW.force

end Saber.Arm
