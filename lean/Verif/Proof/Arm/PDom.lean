import Verif.Proof.Arm.LDom
import Verif.Proof.Arm.Mem
import Verif.Model.Arm.Polymul
/-!
# Symbolic execution of `polymul_asm`: linear forms modulo `2^32`

Variables: `a_i` and `b_i` have the numbers `i` and `256 + i`.  Coefficient `i` of the product at evaluation point `t` has the number
`1024 + 128 * t + i`.  In the interpolation, the result of the shift number `j` for coefficient `i` has the number `2048 + 128 * j + i`.
-/
namespace Saber.Arm

def pmergeF (v c : Nat) (rec : LF → LF) : LF → LF
  | [] => (v, c) :: rec []
  | (w, d) :: b => match Nat.blt v w with
    | true => (v, c) :: rec ((w, d) :: b)
    | false => match Nat.beq v w with
      | true => consF v ((c.add d).mod 4294967296) (rec b)
      | false => (w, d) :: pmergeF v c rec b

def LF.padd : LF → LF → LF
  | [], b => b
  | (v, c) :: l, b => pmergeF v c (LF.padd l) b

def LF.pscale (n : Nat) : LF → LF
  | [] => []
  | (v, c) :: l => consF v ((c.mul n).mod 4294967296) (LF.pscale n l)

/-- Symbolic halfwords: a form modulo `2^16`, or a constant. -/
inductive PH
  | lin (l : LF)
  | c (n : Nat)
  | unk

def PH.force {α : Type} (h : PH) (k : PH → α) : α :=
  match h with
  | .lin l => l.force fun l => k (.lin l)
  | .c n => forceN n fun n => k (.c n)
  | .unk => k .unk

def PH.add : PH → PH → PH
  | .lin l, .lin l' => .lin (l.padd l')
  | _, _ => .unk

def PH.neg : PH → PH
  | .lin l => .lin (l.pscale 4294967295)
  | _ => .unk

/-- Symbolic words: two halfwords, a form modulo `2^16` or `2^32`, or a constant. -/
inductive PW
  | hh (lo hi : PH)
  | f16 (l : LF)
  | f32 (l : LF)
  | cst (n : Nat)

def PW.lo : PW → PH
  | .hh l _ => l
  | .f16 l => .lin l
  | .f32 l => .lin l
  | .cst n => .c (n.mod 65536)

def PW.hi : PW → PH
  | .hh _ h => h
  | .cst n => .c ((n.div 65536).mod 65536)
  | _ => .unk

/-- The coefficients of the products are halfwords. -/
def isProd : LF → Bool
  | [(v, c)] => Nat.beq c 1 && (Nat.ble 1024 v && Nat.blt v 1920)
  | _ => false

def pjoin : PH → PH → PW
  | .lin l, .c 0 => match isProd l with
    | true => .f32 l
    | false => .f16 l
  | l, h => .hh l h

/-- The variables for product `t` and for shift `j`. -/
abbrev pV (t i : Nat) : Nat := Nat.add (Nat.add 1024 (Nat.mul 128 t)) i
@[inherit_doc pV] abbrev qV (j i : Nat) : Nat := Nat.add (Nat.add 2048 (Nat.mul 128 j)) i

/-- What is shifted, and by how much. -/
def qForm : Nat → Nat → LF
  | 0, i => [(pV 1 i, 1), (pV 2 i, 1)]
  | 1, i => [(pV 0 i, 4294967294), (pV 3 i, 1), (pV 4 i, 1), (pV 6 i, 4294967168)]
  | 2, i => [(pV 1 i, 1), (pV 2 i, 4294967295)]
  | 3, i => [(pV 3 i, 1), (pV 4 i, 4294967295)]
  | _, i => [(pV 0 i, 4293219664), (pV 5 i, 43691), (pV 6 i, 4261412616), (qV 0 i, 1703941), (qV 1 i, 4292870136), (qV 2 i, 4294967295)]
@[inherit_doc qForm] def qSh : Nat → Nat
  | 0 => 1
  | 1 => 3
  | 2 => 1
  | 3 => 2
  | _ => 3

/-- The first variable of `qForm j 0`. -/
def qBase : Nat → Nat
  | 0 => 1152
  | 1 => 1024
  | 2 => 1152
  | 3 => 1408
  | _ => 1024

/-- Is `l` shifted by `n` the shift number `j`? -/
def qTry (j n v : Nat) (l : LF) (k : Option Nat) : Option Nat :=
  match Nat.beq n (qSh j) && (Nat.ble (qBase j) v && Nat.blt v ((qBase j).add 128)) with
  | true => match l.eq (qForm j (v.sub (qBase j))) with
    | true => some (qV j (v.sub (qBase j)))
    | false => k
  | false => k

def qIx (n : Nat) : LF → Option Nat
  | [] => none
  | (v, c) :: l => qTry 0 n v ((v, c) :: l) (qTry 1 n v ((v, c) :: l) (qTry 2 n v ((v, c) :: l) (qTry 3 n v ((v, c) :: l) (qTry 4 n v ((v, c) :: l) none))))

def pop1 : Op1 → PW → PW
  | .id, x => x
  | .lsl n, .f32 l => .f32 (l.pscale (Nat.pow 2 n))
  | .lsl n, .f16 l => .f16 (l.pscale (Nat.pow 2 n))
  | .lsr n, .f32 l => match qIx n l with
    | some v => .f32 [(v, 1)]
    | none => .hh .unk .unk
  | _, _ => .hh .unk .unk

def padd : PW → PW → PW
  | .f32 l, .f32 l' => .f32 (l.padd l')
  | .f16 l, .f32 l' => .f16 (l.padd l')
  | .f32 l, .f16 l' => .f16 (l.padd l')
  | .f16 l, .f16 l' => .f16 (l.padd l')
  | _, _ => .hh .unk .unk

def pmul : PW → Nat → PW
  | .f32 l, n => .f32 (l.pscale n)
  | .f16 l, n => .f16 (l.pscale n)
  | _, _ => .hh .unk .unk

def pop2 : Op2 → PW → PW → PW
  | .add, x, y => padd x y
  | .sub, x, y => padd x (pmul y 4294967295)
  | .mul, x, .cst n => pmul x n
  | .uadd16, x, y => .hh (x.lo.add y.lo) (x.hi.add y.hi)
  | .usub16, x, y => .hh (x.lo.add y.lo.neg) (x.hi.add y.hi.neg)
  | _, _, _ => .hh .unk .unk

def PW.force {α : Type} (w : PW) (k : PW → α) : α :=
  match w with
  | .hh l h => l.force fun l => h.force fun h => k (.hh l h)
  | .f16 l => l.force fun l => k (.f16 l)
  | .f32 l => l.force fun l => k (.f32 l)
  | .cst n => forceN n fun n => k (.cst n)

/-- The symbolic machine. -/
def pdom : Dom where
  W := PW
  H := PH
  M := KM PH
  lo := PW.lo
  hi := PW.hi
  join := pjoin
  zero := .c 0
  const n := .cst (n.mod 4294967296)
  known
    | .cst n => some n
    | _ => none
  op1 := pop1
  op2 := pop2
  op3 _ _ _ _ := .hh .unk .unk
  rd := KM.rd
  wr m o i c := KM.wrK m o i c some
  force := PW.force

/-! ### The call of `karatsuba_64x64` -/

/-- The weights of the blocks of an operand at evaluation point `t`: 0, 1, -1, 2, -2, 3, infinity. -/
def pvW : Nat → List Nat
  | 0 => [1, 0, 0, 0]
  | 1 => [1, 1, 1, 1]
  | 2 => [1, 4294967295, 1, 4294967295]
  | 3 => [1, 2, 4, 8]
  | 4 => [1, 4294967294, 4, 4294967288]
  | 5 => [1, 3, 9, 27]
  | _ => [0, 0, 0, 1]

/-- The form with the given coefficients at the variables `v`, `v + s`, and so on. -/
def pformOf (s : Nat) : Nat → List Nat → LF
  | _, [] => []
  | v, c :: l => consF v c (pformOf s (v.add s) l)

/-- An operand: 64 halfwords at `i0`. -/
def pchkOp (m : KM PH) (o i0 base t : Nat) : Bool :=
  (List.range 64).all fun i => match KM.rd m o (i0.add i) with
    | some (.half (.lin l)) => l.eq (pformOf 64 (base.add i) (pvW t))
    | _ => false

/-- Store `f j`, `f (j + 1)`, and so on. -/
def pwrs (f : Nat → Cell PH) (o : Nat) : Nat → Nat → Nat → KM PH → Option (KM PH)
  | 0, _, _, m => some m
  | n + 1, j, i, m => match KM.wrK m o i (f j) some with
    | some m => pwrs f o n j.succ i.succ m
    | none => none

/-- The offset of the products on the stack. -/
abbrev pOff : Nat := 1960

def pCell (t i : Nat) : Cell PH := forceN (pV t i) fun v => .half (.lin [(v, 1)])

/-- The conditions for the call: the places of the operands, the result and the stack. -/
def pPre (o1 p1 o2 p2 q t : Nat) : Bool :=
  Nat.ble t 6 && (Nat.beq (p1.mod 2) 0 && (Nat.beq (p2.mod 2) 0 && (Nat.beq (q.mod 2) 0 && (Nat.ble 416 q && (Nat.ble q 424 &&
  ((Nat.blt o1 3 || (Nat.ble 424 p1 && Nat.ble p1 1832)) && ((Nat.blt o2 3 || (Nat.ble 424 p2 && Nat.ble p2 1832)) &&
    (!Nat.beq o1 o2 || (Nat.ble (p1.add 128) p2 || Nat.ble (p2.add 128) p1)))))))))

/-- The effect of `karatsuba_64x64` in `polymul_asm`, with the operands in registers `r1` and `r2`. -/
def karaP (s : State pdom) : Option (State pdom) :=
  match s.r0, s.r1, s.r2, s.sp, s.lr with
  | .a (.ptr 3 (.ofNat d)), .a (.ptr o1 (.ofNat p1)), .a (.ptr o2 (.ofNat p2)), .a (.ptr 3 (.ofNat q)), .a (.code n) =>
    forceN ((d.sub pOff).div 256) fun t => match Nat.beq d (Nat.add pOff (Nat.mul 256 t)) && (pPre o1 p1 o2 p2 q t &&
        (pchkOp s.mem o1 (p1.div 2) 0 t && pchkOp s.mem o2 (p2.div 2) 256 t)) with
      | true => match pwrs (pCell t) 3 127 0 (d.div 2) s.mem with
        | some m => match pwrs (fun _ => .undef) 3 208 0 ((q.div 2).sub 208) m with
          | some m => some ⟨.a (.ptr 3 (.ofNat d)), .a (.ptr o1 (.ofNat p1)), .a (.ptr o2 (.ofNat p2)), .undef, .undef, .undef, .undef, .undef,
              .undef, .undef, .undef, .undef, .undef, .a (.ptr 3 (.ofNat q)), .undef, .a (.code n), m, ⟨none, none⟩⟩
          | none => none
        | none => none
      | false => none
  | _, _, _, _, _ => none

/-- `polymul_asm` on linear forms. -/
def polymulL : State pdom → Option (State pdom) := run (fun | 0 => karaP | _ => fun _ => none) 0 polymul_asm

def pP (o : Nat) (off : Int) : Val PW := .a (.ptr o off)
def pO (o : Nat) : Val PW := .a (.opq o)

def polymulObj : List (Nat × (Nat → Cell PH)) :=
  [(511, fun _ => .undef), (256, fun i => .half (.lin [(i, 1)])), (256, fun i => .half (.lin [(256 + i, 1)])), (1896, fun _ => .undef)]

def polymulK : State pdom :=
  ⟨pP 0 0, pP 1 0, pP 2 0, pO 3, pO 4, pO 5, pO 6, pO 7, pO 8, pO 9, pO 10, pO 11, pO 12, pP 3 3792, .a (.code 99), pO 15, kmemOf polymulObj,
    ⟨none, none⟩⟩

/-- Coefficient `i` of block `k` of the result. -/
def blkForm : Nat → Nat → LF
  | 0, i => [(pV 0 i, 1)]
  | 1, i => [(qV 2 i, 2004379240), (qV 3 i, 2290588057), (qV 4 i, 4294914868)]
  | 2, i => [(pV 0 i, 4294923604), (pV 6 i, 4294923604), (qV 0 i, 43692), (qV 1 i, 4294923605)]
  | 3, i => [(qV 2 i, 4294879914), (qV 3 i, 87382), (qV 4 i, 4294967295)]
  | 4, i => [(pV 0 i, 43691), (pV 6 i, 43691), (qV 0 i, 4294923605), (qV 1 i, 43691)]
  | 5, i => [(qV 2 i, 2290675439), (qV 3 i, 2004291857), (qV 4 i, 52429)]
  | 6, i => [(pV 6 i, 1)]
  | _, _ => []

/-- Coefficient `64 * k + r` of the result. -/
def presForm (k r : Nat) : LF :=
  LF.padd (blkForm k r) (match Nat.ble 1 k && Nat.blt r 63 with
    | true => blkForm (k.sub 1) (r.add 64)
    | false => [])

def pchkRes (i : Nat) : PH → Bool
  | .lin l => l.eq (presForm (i.div 64) (i.mod 64))
  | _ => false

def pchkVar (base i : Nat) : PH → Bool
  | .lin l => l.eq [(base.add i, 1)]
  | _ => false

def polymulFinal (s : State pdom) : Bool :=
  KM.allH s.mem 0 pchkRes 511 && (KM.allH s.mem 1 (pchkVar 0) 256 && (KM.allH s.mem 2 (pchkVar 256) 256 &&
  (isP s.sp 3 3792 && (isC s.pc 99 && (saved s && isO s.ip 12)))))

def polymulCheck : Bool := match polymulL polymulK with
  | none => false
  | some s => polymulFinal s

end Saber.Arm
