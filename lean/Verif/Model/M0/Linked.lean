import Verif.Model.Fips202
import Verif.Model.Arm.Keccak
/-!
# The Cortex-M0 build
-/
namespace Saber.M0

/-- `fips202.c` linked with `asm_KeccakF-1600.S` (Makefile:59-64): the calls of `KeccakF1600_StatePermute` in the C code run the assembly function on
the 200 bytes of the state, with arbitrary registers `g` and arbitrary contents `stk` of the 64 bytes of stack that it uses. -/
@[instance_reducible] def linked (g : Arm.Reg → Arm.Val Arm.conc.W) (stk : List (Arm.Cell (BitVec 16))) : StatePermute :=
  ⟨Arm.Keccak.perm_asm g stk⟩

end Saber.M0
