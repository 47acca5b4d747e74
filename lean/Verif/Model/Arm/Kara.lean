import Verif.Model.Arm.KaraS
import Verif.Model.M4.PolyMul
/-!
# Running the assembly of `Cortex-M4/src/*/m4-striding/kara.s`

The memory has five objects: the four arrays of 64 coefficients of the caller (poly_mul.h:7), and the part of the stack below the stack
pointer.  The four arrays are disjoint, as they are at the call in `toom_cook_4way_striding` (poly_mul.c:100-106).
-/
namespace Saber.Arm

/-- `kara_strd_mem_asm` with the subroutine `schoolbook_gen` (kara.s). -/
def karaF (D : Dom) : State D → Option (State D) := run (fun _ => run (fun _ _ => none) 100 schoolbook_gen) 0 kara_strd_mem_asm

/-- An array in memory. -/
def halves (a : List (BitVec 16)) : List (Cell (BitVec 16)) := a.map .half

/-- An array read from memory, if it holds numbers only. -/
def unhalves : List (Cell (BitVec 16)) → Option (List (BitVec 16))
  | [] => some []
  | .half x :: l => match unhalves l with
    | some a => some (x :: a)
    | none => none
  | _ :: _ => none

/-- The state at the call: the arguments are in `r0` to `r3` (procedure call standard), the return address is `code 99`, and all other
registers are arbitrary. -/
def karaStart (g : Reg → Val conc.W) (k : M4.K4) (stk : List (Cell (BitVec 16))) : State conc where
  r0 := .a (.ptr 0 0)
  r1 := .a (.ptr 1 0)
  r2 := .a (.ptr 2 0)
  r3 := .a (.ptr 3 0)
  r4 := g .r4
  r5 := g .r5
  r6 := g .r6
  r7 := g .r7
  r8 := g .r8
  r9 := g .r9
  sl := g .sl
  fp := g .fp
  ip := g .ip
  sp := .a (.ptr 4 (2 * stk.length))
  lr := .a (.code 99)
  pc := g .pc
  mem := [halves k.a, halves k.b, halves k.res, halves k.tmp, stk]
  fl := ⟨none, none⟩

/-- `kara_strd_mem_asm` as a function on the contents of the arrays. -/
def kara_asm (g : Reg → Val conc.W) (stk : List (Cell (BitVec 16))) : M4.Kara := fun k =>
  match karaF conc (karaStart g k stk) with
  | some s => match (s.mem : List (List (Cell (BitVec 16)))) with
    | [a, b, r, t, _] => match unhalves a, unhalves b, unhalves r, unhalves t with
      | some a, some b, some r, some t => .ok ⟨a, b, r, t⟩
      | _, _, _, _ => .error .oob
    | _ => .error .oob
  | none => .error .oob

end Saber.Arm
