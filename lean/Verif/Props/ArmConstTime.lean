import Verif.Proof.Arm.TaintDom
import Verif.Proof.Arm.TaintMul
import Verif.Props.Arm
import Verif.Props.ArmTc
import Verif.Props.Polymul
import Verif.Props.M0Asm
/-!
# C68: the assembly functions run in constant time

`karaEv`, `toomEv`, `polymulEv`, `tcEv` and `permEv` list what a run of the machine shows of its addresses and decisions (`Model/Arm/Obs.lean`, `ObsMul.lean`): the object, position and size
of every memory access, whether a conditional instruction is executed, and the direction of every loop branch.
-/
namespace Saber.Props
open Spec Arm Arm.Keccak

/-- C68: the Karatsuba assembly of the Cortex-M4 makes the same accesses and decisions for all contents of the arrays, the registers and
the stack, and completes. -/
theorem C68_kara : ∃ events : List Arm.Ev, ∀ (g : Reg → Val conc.W) (k : M4.K4) (stk : List (Cell (BitVec 16))), (∀ r, g r ≠ .undef) →
    k.a.length = 64 → k.b.length = 64 → k.res.length = 64 → k.tmp.length = 64 → stk.length = 30 →
    (∃ s, karaF conc (karaStart g k stk) = some s) ∧ karaEv conc (karaStart g k stk) = events := by
  refine ⟨karaEv _ (tStart 4 5 .e 4 30 8), ?_⟩
  intro g k stk hg ha hb hr ht hs
  obtain ⟨s, -, -, -, -, -, h, -⟩ := C50_kara g hg k stk ha hb hr ht hs
  exact ⟨⟨s, h⟩, kara_events hs h⟩

/-- C68: so does the Toom-Cook assembly of the Cortex-M4. -/
theorem C68_toom : ∃ events : List Arm.Ev, ∀ (g : Reg → Val conc.W) (a b res : List (BitVec 16)) (stk : List (Cell (BitVec 16))),
    (∀ r, g r ≠ .undef) → a.length = 256 → b.length = 256 → res.length = 256 → stk.length = 1776 →
    (∃ s, toomF conc (toomStart g a b res stk) = some s) ∧ toomEv conc (toomStart g a b res stk) = events := by
  refine ⟨toomEv _ (tStart 3 4 .e 3 1776 12), ?_⟩
  intro g a b res stk hg ha hb hr hs
  obtain ⟨s, -, -, h, -⟩ := C51_toom g hg a b res stk ha hb hr hs
  exact ⟨⟨s, h⟩, toom_events hs h⟩

/-- C68: so does the Keccak permutation of the Cortex-M0. -/
theorem C68_keccak : ∃ events : List Arm.Ev, ∀ (g : Reg → Val conc.W) (w : List (BitVec 32)) (stk : List (Cell (BitVec 16))),
    (∀ r, g r ≠ .undef) → w.length = 50 → stk.length = 32 →
    (∃ s, permF conc (permStart g w stk) = some s) ∧ permEv conc (permStart g w stk) = events := by
  refine ⟨permEv _ (tStart 2 1 pubRC 1 32 8), ?_⟩
  intro g w stk hg hw hs
  obtain ⟨s, -, -, h, -⟩ := C52_keccak_asm g hg w hw stk hs
  exact ⟨⟨s, h⟩, perm_events hs h⟩

/-- C68: so does `polymul_asm`. -/
theorem C68_polymul : ∃ events : List Arm.Ev, ∀ (g : Reg → Val conc.W) (r a b : List (BitVec 16)) (stk : List (Cell (BitVec 16))),
    (∀ r, g r ≠ .undef) → r.length = 511 → a.length = 256 → b.length = 256 → stk.length = 1896 →
    (∃ s, polymulF conc (polymulStart g (halves r) a b stk) = some s) ∧ polymulEv conc (polymulStart g (halves r) a b stk) = events := by
  refine ⟨polymulEv _ (tStart 3 4 .e 3 1896 12), ?_⟩
  intro g r a b stk hg hr ha hb hs
  obtain ⟨s, -, -, h, -⟩ := C78_polymul g hg (halves r) a b stk (by rw [halves, List.length_map, hr]) ha hb hs
  exact ⟨⟨s, h⟩, polymul_events hs h⟩

/-- C68: so does `toom_cook_4way_striding_asm`, wherever it is linked. -/
theorem C68_striding : ∃ events : List Arm.Ev, ∀ (ra : BitVec 32) (g : Reg → Val conc.W) (a b res : List (BitVec 16)) (stk : List (Cell (BitVec 16))),
    (∀ r, g r ≠ .undef) → a.length = 256 → b.length = 256 → res.length = 256 → stk.length = 886 →
    (∃ s, tcF conc ra (toomStart g a b res stk) = some s) ∧ tcEv conc ra (toomStart g a b res stk) = events := by
  refine ⟨tcEv _ none (tStart 3 4 .e 3 886 11), ?_⟩
  intro ra g a b res stk hg ha hb hr hs
  obtain ⟨s, -, -, -, -, h, -⟩ := C79_result ra g hg a b res stk ha hb hr hs
  exact ⟨⟨s, h⟩, tc_events hs h⟩

/-- A state with two words in object 0, for the examples. -/
def demo (x y : BitVec 32) : State conc := { permStart (fun _ => .a (.opq 0)) [x, y, 0] [] with r1 := .a (.ptr 0 0) }

/-- The events show a decision that depends on data … -/
example : stepsEv [.ldr .r2 .r0 0 .off, .cmpi .r2 5, .ne (.ldr .r3 .r1 4 .off)] (demo 5 0) = [.load 0 0 2, .cond false] ∧
    stepsEv [.ldr .r2 .r0 0 .off, .cmpi .r2 5, .ne (.ldr .r3 .r1 4 .off)] (demo 6 0) = [.load 0 0 2, .cond true, .load 0 2 2] := by
  decide +kernel

/-- … and a loop whose number of iterations depends on data. -/
example : doNeEv [.ldrh .r2 .r0 2 .post, .cmpi .r2 0] 256 (demo 5 0) = [.load 0 0 1, .loop true, .load 0 1 1, .loop false] ∧
    doNeEv [.ldrh .r2 .r0 2 .post, .cmpi .r2 0] 256 (demo 0 0) = [.load 0 0 1, .loop false] := by
  decide +kernel

/-- The permutation makes accesses and decisions: the six rounds of the loop are seen, four permutation rounds each. -/
theorem permEv_loops : ((permEv _ (tStart 2 1 pubRC 1 32 8)).filter fun
    | .loop _ => true
    | _ => false) = List.replicate 5 (.loop true) ++ [.loop false] := by
  decide +kernel

end Saber.Props
