import Verif.Model.Arm.Obs
import Verif.Model.Arm.Kara
import Verif.Model.Arm.Toom
import Verif.Model.Leak.M4
/-!
# The Cortex-M4 builds with events
-/
namespace Saber.Leak.M4
open Arm

/-- The two builds of the Cortex-M4 (Cortex-M4/src/saber/m4-striding, Cortex-M4/src/saber/m4-tc4kara): they differ in the multiplication. -/
inductive Build
  /-- `toom_cook_4way_striding` (C) with `kara_strd_mem_asm` (assembly) -/
  | striding
  /-- `toom_cook_4way_mem_asm` (assembly) -/
  | tc4kara

/-- Half words of stack that the assembly function of the build needs (C50, C51). -/
def Build.stack : Build → Nat
  | .striding => 30
  | .tc4kara => 1776

/-- `kara_strd_mem_asm` (Cortex-M4/src/*/m4-striding/kara.s) with events; compare `Arm.kara_asm`.  A call shows the accesses and decisions of the
assembly function. -/
def kara (g : Reg → Val conc.W) (stk : List (Cell (BitVec 16))) : LKara := fun k =>
  ⟨(karaEv conc (karaStart g k stk)).map .asm, kara_asm g stk k⟩

/-- `toom_cook_4way_mem_asm` (Cortex-M4/src/*/m4-tc4kara/asm_funcs.S) with events; compare `Arm.toom_asm`. -/
def toom (g : Reg → Val conc.W) (stk : List (Cell (BitVec 16))) : LToom := fun a b res =>
  ⟨(toomEv conc (toomStart g a b res stk)).map .asm, toom_asm g stk a b res⟩

/-- The multiplication of a build with events. -/
def mult (v : Build) (g : Reg → Val conc.W) (stk : List (Cell (BitVec 16))) : LToom :=
  match v with
  | .striding => toom_cook_4way_striding .wrap (kara g stk)
  | .tc4kara => toom g stk

end Saber.Leak.M4

namespace Saber.M4
open Arm

/-- The multiplication of a build. -/
def mult (v : Leak.M4.Build) (g : Reg → Val conc.W) (stk : List (Cell (BitVec 16))) : Toom :=
  match v with
  | .striding => toom_cook_4way_striding .wrap (kara_asm g stk)
  | .tc4kara => toom_asm g stk

end Saber.M4
