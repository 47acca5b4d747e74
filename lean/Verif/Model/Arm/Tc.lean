import Verif.Model.Arm.TcS
import Verif.Model.Arm.Toom
/-!
# Running the assembly of `Cortex-M4/src/*/m4-striding/tc.s`

The memory has four objects: the arrays `a`, `b` and `res` of 256 coefficients of the caller (m4-striding/poly_mul.h:6), and the part of the stack
below the stack pointer.  The three arrays are disjoint, as they would be at the call that is commented out in m4-striding/poly_mul.c:57.
-/
namespace Saber.Arm

/-- `kara_strd_mem_asm` at the last of the seven calls (tc.s:2214).  The function returns with its return address in `lr` (kara.s:1439-1440), and
the caller uses `lr` as a number (from tc.s:2288 on).  The number of that address is `ra`. -/
def karaRA (D : Dom) (ra : D.W) (s : State D) : Option (State D) :=
  match karaF D s with
  | some s => match s.lr with
    | .a (.code _) => some (s.set .lr (.w ra))
    | _ => none
  | none => none

/-- `toom_cook_4way_striding_asm` (tc.s), where `ra` is the address of the instruction after the last call (tc.s:2215). -/
def tcF (D : Dom) (ra : D.W) : State D → Option (State D) :=
  run (fun | 0 => karaF D | 1 => karaRA D ra | _ => fun _ => none) 0 toom_cook_4way_striding_asm

/-- `toom_cook_4way_striding_asm(a, b, res)` as a function on the contents of the arrays: the new contents of `b` and `res`.  The state at the call
is `toomStart`. -/
def tc_asm (ra : BitVec 32) (g : Reg → Val conc.W) (stk : List (Cell (BitVec 16))) : M4.Toom := fun a b res =>
  match tcF conc ra (toomStart g a b res stk) with
  | some s => match (s.mem : List (List (Cell (BitVec 16)))) with
    | [_, b, r, _] => match unhalves b, unhalves r with
      | some b, some r => .ok (b, r)
      | _, _ => .error .oob
    | _ => .error .oob
  | none => .error .oob

end Saber.Arm
