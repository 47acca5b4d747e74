import Verif.Model.Arm.Machine
/-!
# Symbolic execution of the assembly: linear and bilinear forms

A halfword is represented by a linear form in variables `x_i`, a linear form in variables `y_j`, or a bilinear form, modulo `2^16`.  A form with
coefficients `p_i - n_i` is encoded by the two numbers `∑ p_i B^i` and `∑ n_i B^i`, so that sums and products of forms are sums and
products of numbers.  A bound on the number of terms excludes carries.
-/
namespace Saber.Arm

/-- The base. -/
abbrev KB : Nat := 2003

/-- Symbolic halfwords. -/
inductive KH
  | zero
  | x (p n m : Nat)
  | y (p n m : Nat)
  | xy (p n m : Nat)
  | opq (k : Nat)
  | unk

/-- Evaluate a number before it is used. -/
def forceN {α : Type} (x : Nat) (k : Nat → α) : α :=
  match x with
  | 0 => k 0
  | .succ n => k n.succ

@[inherit_doc forceN] def KH.force {α : Type} (h : KH) (k : KH → α) : α :=
  match h with
  | .zero => k .zero
  | .x p n m => forceN p fun p => forceN n fun n => forceN m fun m => k (.x p n m)
  | .y p n m => forceN p fun p => forceN n fun n => forceN m fun m => k (.y p n m)
  | .xy p n m => forceN p fun p => forceN n fun n => forceN m fun m => k (.xy p n m)
  | .opq i => k (.opq i)
  | .unk => k .unk

def KH.add : KH → KH → KH
  | .zero, b => b
  | .x p n m, .zero => .x p n m
  | .y p n m, .zero => .y p n m
  | .xy p n m, .zero => .xy p n m
  | .opq k, .zero => .opq k
  | .x p n m, .x p' n' m' => .x (p.add p') (n.add n') (m.add m')
  | .y p n m, .y p' n' m' => .y (p.add p') (n.add n') (m.add m')
  | .xy p n m, .xy p' n' m' => .xy (p.add p') (n.add n') (m.add m')
  | _, _ => .unk

def KH.neg : KH → KH
  | .zero => .zero
  | .x p n m => .x n p m
  | .y p n m => .y n p m
  | .xy p n m => .xy n p m
  | _ => .unk

def KH.sub (a b : KH) : KH := a.add b.neg

def KH.mul : KH → KH → KH
  | .zero, _ => .zero
  | .x .., .zero => .zero
  | .y .., .zero => .zero
  | .x p n m, .y p' n' m' => .xy ((p.mul p').add (n.mul n')) ((p.mul n').add (n.mul p')) (Nat.mul 2 (m.mul m'))
  | .y p' n' m', .x p n m => .xy ((p.mul p').add (n.mul n')) ((p.mul n').add (n.mul p')) (Nat.mul 2 (m.mul m'))
  | _, _ => .unk

/-- Symbolic words: two halfwords or a constant. -/
inductive KW
  | hh (lo hi : KH)
  | cst (n : Nat)

def KW.lo : KW → KH
  | .hh l _ => l
  | .cst _ => .unk

def KW.hi : KW → KH
  | .hh _ h => h
  | .cst _ => .unk

def kop1 : Op1 → KW → KW
  | .id, x => x
  | .lsl 16, x => .hh .zero x.lo
  | .lsr 16, x => .hh x.hi .zero
  | .asr 16, x => .hh x.hi .unk
  | .movt 0, x => .hh x.lo .zero
  | _, _ => .hh .unk .unk

def kop2 : Op2 → KW → KW → KW
  | .add, x, y => .hh (x.lo.add y.lo) .unk
  | .sub, x, y => .hh (x.lo.sub y.lo) .unk
  | .uadd16, x, y => .hh (x.lo.add y.lo) (x.hi.add y.hi)
  | .usub16, x, y => .hh (x.lo.sub y.lo) (x.hi.sub y.hi)
  | .smulbb, x, y => .hh (x.lo.mul y.lo) .unk
  | .smultb, x, y => .hh (x.hi.mul y.lo) .unk
  | .smultt, x, y => .hh (x.hi.mul y.hi) .unk
  | .smuad, x, y => .hh ((x.lo.mul y.lo).add (x.hi.mul y.hi)) .unk
  | .smuadx, x, y => .hh ((x.lo.mul y.hi).add (x.hi.mul y.lo)) .unk
  | .pkhbt, x, y => .hh x.lo y.hi
  | .pkhtb, x, y => .hh y.lo x.hi
  | _, _, _ => .hh .unk .unk

def kop3 : Op3 → KW → KW → KW → KW
  | .smlabb, x, y, z => .hh ((x.lo.mul y.lo).add z.lo) .unk
  | .smlatt, x, y, z => .hh ((x.hi.mul y.hi).add z.lo) .unk
  | .smlad, x, y, z => .hh (((x.lo.mul y.lo).add (x.hi.mul y.hi)).add z.lo) .unk
  | .smladx, x, y, z => .hh (((x.lo.mul y.hi).add (x.hi.mul y.lo)).add z.lo) .unk

def KW.force {α : Type} (w : KW) (k : KW → α) : α :=
  match w with
  | .hh l h => l.force fun l => h.force fun h => k (.hh l h)
  | .cst n => forceN n fun n => k (.cst n)

/-! ### Memory as a tree -/

inductive T (α : Type)
  | e
  | n (l : T α) (x : α) (r : T α)

def T.get {α : Type} : T α → Nat → Option α
  | .e, _ => none
  | .n l x r, i => match Nat.beq i 0 with
    | true => some x
    | false => match Nat.beq (i.mod 2) 1 with
      | true => l.get (i.div 2)
      | false => r.get ((i.div 2).pred)

/-- `set` in continuation-passing style, so that the new tree is evaluated. -/
def T.setK {α β : Type} : T α → Nat → α → (T α → Option β) → Option β
  | .e, _, _, _ => none
  | .n l x r, i, v, k => match Nat.beq i 0 with
    | true => k (.n l v r)
    | false => match Nat.beq (i.mod 2) 1 with
      | true => l.setK (i.div 2) v fun l => k (.n l x r)
      | false => r.setK ((i.div 2).pred) v fun r => k (.n l x r)

/-- The tree of depth at most `d` with entries `f (s * j + o)` at `j` for `s * j + o < n`. -/
def T.build {α : Type} (f : Nat → α) (n : Nat) : Nat → Nat → Nat → T α
  | 0, _, _ => .e
  | d + 1, s, o => if o < n then .n (T.build f n d (2 * s) (s + o)) (f o) (T.build f n d (2 * s) (2 * s + o)) else .e

abbrev KM (H : Type) := List (T (Cell H))

def KM.rd {H : Type} : KM H → Nat → Nat → Option (Cell H)
  | [], _, _ => none
  | t :: _, 0, i => t.get i
  | _ :: l, o + 1, i => KM.rd l o i

def KM.wrK {H β : Type} : KM H → Nat → Nat → Cell H → (KM H → Option β) → Option β
  | [], _, _, _, _ => none
  | t :: l, 0, i, c, k => t.setK i c fun t => k (t :: l)
  | t :: l, o + 1, i, c, k => KM.wrK l o i c fun l => k (t :: l)

/-- The symbolic machine. -/
def kdom : Dom where
  W := KW
  H := KH
  M := KM KH
  lo := KW.lo
  hi := KW.hi
  join l h := .hh l h
  zero := .zero
  const n := .cst (n % 4294967296)
  known
    | .cst n => some n
    | _ => none
  op1 := kop1
  op2 := kop2
  op3 := kop3
  rd := KM.rd
  wr m o i c := KM.wrK m o i c some
  force := KW.force

end Saber.Arm
