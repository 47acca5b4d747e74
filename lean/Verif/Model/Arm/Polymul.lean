import Verif.Model.Arm.PolymulS
import Verif.Model.Arm.Toom
/-!
# Running `polymul_asm` of `Cortex-M4/src/*/m4-tc4kara/mult_toom4_256_16.s`

`void polymul_asm(uint16_t *r, const uint16_t *a, const uint16_t *b)` (m4-tc4kara/poly_mul.h:6) writes the 511 coefficients of the product of two
polynomials with 256 coefficients.  The memory has four objects: the arrays `r`, `a` and `b` of the caller, and the part of the stack below the
stack pointer.  The three arrays are disjoint, as in the calls that are commented out in poly_mul.c:10 and 25.
-/
namespace Saber.Arm

/-- `polymul_asm` (mult_toom4_256_16.s:1250-9937), which calls `karatsuba_64x64`. -/
def polymulF (D : Dom) : State D → Option (State D) := run (fun | 0 => mulF D | _ => fun _ => none) 0 polymul_asm

/-- The state at the call: the arguments are in `r0` to `r2` (procedure call standard), the return address is `code 99`, and all other
registers are arbitrary.  The array `r` may hold anything. -/
def polymulStart (g : Reg → Val conc.W) (r : List (Cell (BitVec 16))) (a b : List (BitVec 16)) (stk : List (Cell (BitVec 16))) : State conc where
  r0 := .a (.ptr 0 0)
  r1 := .a (.ptr 1 0)
  r2 := .a (.ptr 2 0)
  r3 := g .r3
  r4 := g .r4
  r5 := g .r5
  r6 := g .r6
  r7 := g .r7
  r8 := g .r8
  r9 := g .r9
  sl := g .sl
  fp := g .fp
  ip := g .ip
  sp := .a (.ptr 3 (2 * stk.length))
  lr := .a (.code 99)
  pc := g .pc
  mem := [r, halves a, halves b, stk]
  fl := ⟨none, none⟩

end Saber.Arm
