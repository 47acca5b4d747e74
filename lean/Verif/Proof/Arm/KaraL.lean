import Verif.Proof.Arm.LDom
import Verif.Proof.Arm.Mem
import Verif.Model.Arm.Toom
/-!
# The call of `karatsuba_64x64` on linear forms, and the symbolic run of `toom_cook_4way_mem_asm`

Variables: `a_i`, `b_i`, `res_i` have the numbers `i`, `256 + i` and `512 + i`, and coefficient `i` of `∑_j A_j B_{k-j}`, where `A_j` and `B_j`
are the blocks of 64 coefficients of `a` and `b`, has the number `1024 + 128 * k + i`.
-/
namespace Saber.Arm

/-- The weights of the blocks of an operand at evaluation point `t`: infinity, 2, 1, -1, 1/2, -1/2, 0. -/
def evW : Nat → List Nat
  | 0 => [0, 0, 0, 1]
  | 1 => [1, 2, 4, 8]
  | 2 => [1, 1, 1, 1]
  | 3 => [1, 65535, 1, 65535]
  | 4 => [8, 4, 2, 1]
  | 5 => [8, 65532, 2, 65535]
  | _ => [1, 0, 0, 0]

/-- The weights of the blocks of a product. -/
def evP : Nat → List Nat
  | 0 => [0, 0, 0, 0, 0, 0, 1]
  | 1 => [1, 2, 4, 8, 16, 32, 64]
  | 2 => [1, 1, 1, 1, 1, 1, 1]
  | 3 => [1, 65535, 1, 65535, 1, 65535, 1]
  | 4 => [64, 32, 16, 8, 4, 2, 1]
  | 5 => [64, 65504, 16, 65528, 4, 65534, 1]
  | _ => [1, 0, 0, 0, 0, 0, 0]

/-- The form with the given coefficients at the variables `v`, `v + s`, and so on. -/
def formOf (s : Nat) : Nat → List Nat → LF
  | _, [] => []
  | v, c :: l => consF v c (formOf s (v.add s) l)

/-- An operand: 64 halfwords at `i0`. -/
def chkOp (m : KM LH) (o i0 base t : Nat) : Bool :=
  (List.range 64).all fun i => match KM.rd m o (i0.add i) with
    | some (.half (.lin 16 l)) => l.eq (formOf 64 (base.add i) (evW t))
    | _ => false

/-- Store `f j`, `f (j + 1)`, and so on. -/
def wrs (f : Nat → Cell LH) (o : Nat) : Nat → Nat → Nat → KM LH → Option (KM LH)
  | 0, _, _, m => some m
  | n + 1, j, i, m => match KM.wrK m o i (f j) some with
    | some m => wrs f o n j.succ i.succ m
    | none => none

/-- The offset of the local variables of `toom_cook_4way_mem_asm` on the stack. -/
abbrev wOff : Nat := 432

def dstCell (t i : Nat) : Cell LH := LF.force (formOf 128 (Nat.add 1024 i) (evP t)) fun l => .half (.lin 16 l)

/-- The conditions for the call: the places of the operands, the result and the stack. -/
def karaPre (o1 p1 o2 p2 q t : Nat) : Bool :=
  Nat.ble t 6 && (Nat.beq (p1.mod 2) 0 && (Nat.beq (p2.mod 2) 0 && (Nat.beq (q.mod 2) 0 && (Nat.ble 416 q && (Nat.ble q 432 &&
  ((Nat.blt o1 3 || Nat.ble 2224 p1) && ((Nat.blt o2 3 || Nat.ble 2224 p2) &&
    (!Nat.beq o1 o2 || (Nat.ble (p1.add 128) p2 || Nat.ble (p2.add 128) p1)))))))))

/-- The effect of `karatsuba_64x64` in `toom_cook_4way_mem_asm`, with the operands in registers `r1` and `r2`. -/
def karaL (s : State ldom) : Option (State ldom) :=
  match s.r0, s.r1, s.r2, s.sp, s.lr with
  | .a (.ptr 3 (.ofNat d)), .a (.ptr o1 (.ofNat p1)), .a (.ptr o2 (.ofNat p2)), .a (.ptr 3 (.ofNat q)), .a (.code n) =>
    forceN ((d.sub wOff).div 256) fun t => match Nat.beq d (Nat.add wOff (Nat.mul 256 t)) && (karaPre o1 p1 o2 p2 q t &&
        (chkOp s.mem o1 (p1.div 2) 256 t && chkOp s.mem o2 (p2.div 2) 0 t)) with
      | true => match wrs (dstCell t) 3 127 0 (d.div 2) s.mem with
        | some m => match wrs (fun _ => .undef) 3 208 0 ((q.div 2).sub 208) m with
          | some m => some ⟨.undef, .undef, .undef, .undef, .undef, .undef, .undef, .undef, .undef, .undef, .undef, .undef, .undef,
              .a (.ptr 3 (.ofNat q)), .undef, .a (.code n), m, ⟨none, none⟩⟩
          | none => none
        | none => none
      | false => none
  | _, _, _, _, _ => none

/-- `toom_cook_4way_mem_asm` on linear forms. -/
def toomL : State ldom → Option (State ldom) :=
  run (fun | 0 => karaL | 1 => memset0 | _ => fun _ => none) 0 toom_cook_4way_mem_asm

def lP (o : Nat) (off : Int) : Val LW := .a (.ptr o off)
def lO (o : Nat) : Val LW := .a (.opq o)

def toomObj : List (Nat × (Nat → Cell LH)) :=
  [(256, fun i => .half (.lin 16 [(i, 1)])), (256, fun i => .half (.lin 16 [(256 + i, 1)])), (256, fun i => .half (.lin 16 [(512 + i, 1)])),
    (1776, fun _ => .undef)]

def toomK : State ldom :=
  ⟨lP 0 0, lP 1 0, lP 2 0, lO 3, lO 4, lO 5, lO 6, lO 7, lO 8, lO 9, lO 10, lO 11, lO 12, lP 3 3552, .a (.code 99), lO 15, kmemOf toomObj,
    ⟨none, none⟩⟩

/-- Coefficient `64 * q + r` of the result. -/
def resForm (i : Nat) : LF :=
  let q := i / 64
  let r := i % 64
  LF.add [(512 + i, 1)] (LF.add [(1024 + 128 * q + r, 1)] (LF.add
    (if 1 ≤ q ∧ r < 63 then [(1024 + 128 * (q - 1) + r + 64, 1)] else []) (LF.add
    (if q ≤ 2 then [(1024 + 128 * (q + 4) + r, 65535)] else [])
    (if q ≤ 3 ∧ r < 63 then [(1024 + 128 * (q + 3) + r + 64, 65535)] else []))))

def chkRes (i : Nat) : LH → Bool
  | .lin k l => Nat.ble 13 k && LF.eq ((l.scale 8).add []) ((resForm i).scale 8)
  | _ => false

def chkVar (base i : Nat) : LH → Bool
  | .lin k l => Nat.beq k 16 && LF.eq l [(base + i, 1)]
  | _ => false

def toomFinal (s : State ldom) : Bool :=
  KM.allH s.mem 0 (chkVar 0) 256 && (KM.allH s.mem 1 (chkVar 256) 256 && (KM.allH s.mem 2 chkRes 256 &&
  (isP s.sp 3 3552 && (isC s.pc 99 && saved s))))

def toomCheck : Bool := match toomL toomK with
  | none => false
  | some s => toomFinal s

theorem toomCheck_ok : toomCheck = true := by decide +kernel

end Saber.Arm
