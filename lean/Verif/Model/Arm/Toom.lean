import Verif.Model.Arm.MultS
import Verif.Model.Arm.ToomS
import Verif.Model.Arm.Kara
/-!
# Running the assembly of `Cortex-M4/src/*/m4-tc4kara`

The memory has four objects: the arrays `a`, `b` and `res` of 256 coefficients of the caller (m4-tc4kara/poly_mul.c:5, 21), and the part of the
stack below the stack pointer.  The three arrays are disjoint, as they are at the calls in `poly.c`.
-/
namespace Saber.Arm

/-- `karatsuba_64x64` with the subroutine `schoolbook_16x16` (mult_toom4_256_16.s). -/
def mulF (D : Dom) : State D → Option (State D) := run (fun _ => run (fun _ _ => none) 200 schoolbook_16x16) 100 karatsuba_64x64

/-- `toom_cook_4way_mem_asm` (asm_funcs.S), which calls `karatsuba_64x64` and the C library's `memset`. -/
def toomF (D : Dom) : State D → Option (State D) :=
  run (fun | 0 => mulF D | 1 => memset0 | _ => fun _ => none) 0 toom_cook_4way_mem_asm

/-- The state at the call: the arguments are in `r0` to `r2` (procedure call standard), the return address is `code 99`, and all other
registers are arbitrary. -/
def toomStart (g : Reg → Val conc.W) (a b res : List (BitVec 16)) (stk : List (Cell (BitVec 16))) : State conc where
  r0 := .a (.ptr 0 0)
  r1 := .a (.ptr 1 0)
  r2 := .a (.ptr 2 0)
  r3 := g .r3
  r4 := g .r4
  r5 := g .r5
  r6 := g .r6
  r7 := g .r7
  r8 := g .r8
  r9 := g .r9
  sl := g .sl
  fp := g .fp
  ip := g .ip
  sp := .a (.ptr 3 (2 * stk.length))
  lr := .a (.code 99)
  pc := g .pc
  mem := [halves a, halves b, halves res, stk]
  fl := ⟨none, none⟩

/-- `toom_cook_4way_mem_asm(a, b, res)` as a function on the contents of the arrays: the new contents of `b` and `res`. -/
def toom_asm (g : Reg → Val conc.W) (stk : List (Cell (BitVec 16))) : M4.Toom := fun a b res =>
  match toomF conc (toomStart g a b res stk) with
  | some s => match (s.mem : List (List (Cell (BitVec 16)))) with
    | [_, b, r, _] => match unhalves b, unhalves r with
      | some b, some r => .ok (b, r)
      | _, _ => .error .oob
    | _ => .error .oob
  | none => .error .oob

end Saber.Arm
