import Verif.Model.Arm.Obs
import Verif.Model.M0.Linked
import Verif.Model.Leak.M0
/-!
# The Cortex-M0 build with events
-/
namespace Saber.Leak.M0

/-- `fips202.c` linked with `asm_KeccakF-1600.S` (Makefile:59-64); compare `Saber.M0.linked`.  A call shows the accesses and decisions of the assembly
function. -/
@[instance_reducible] def linked (g : Arm.Reg → Arm.Val Arm.conc.W) (stk : List (Arm.Cell (BitVec 16))) : LPermute :=
  ⟨fun s => ⟨(Arm.permEv Arm.conc (Arm.Keccak.permStart g (Arm.Keccak.wordsOfLanes s) stk)).map .asm, Arm.Keccak.perm_asm g stk s⟩⟩

end Saber.Leak.M0
