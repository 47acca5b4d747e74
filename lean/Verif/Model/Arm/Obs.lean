import Verif.Model.Arm.Ev
import Verif.Model.Arm.Keccak
import Verif.Model.Arm.Toom
/-!
# What an observer of addresses and branches sees of a run of the machine

This file models no function of the repository.  The functions below list the events of a run of the interpreter of
`Model/Arm/Machine.lean`: every memory access with its object, its position and its size, every conditional instruction with the
decision whether it is executed, and every loop branch with its direction.  The places of the objects are fixed by the caller, so the
events determine the addresses; the instructions that are executed are determined by the decisions.
-/
namespace Saber.Arm

variable {D : Dom}

/-- The access of a load or store instruction. -/
def accEv (e : Nat → Nat → Ev) (v : Val D.W) (off : Int) (x : Idx) : List Ev :=
  match index v off x with
  | some ((o, i), _) => [e o i]
  | none => []

/-- Events of one instruction that is executed in state `s`; compare `step`. -/
def stepEv : Ins → State D → List Ev
  | .ldr _ rn off x, s => accEv (fun o i => .load o i 2) (s.get rn) off x
  | .ldrh _ rn off x, s => accEv (fun o i => .load o i 1) (s.get rn) off x
  | .str _ rn off x, s => accEv (fun o i => .store o i 2) (s.get rn) off x
  | .strh _ rn off x, s => accEv (fun o i => .store o i 1) (s.get rn) off x
  | .push l, s => match addr (s.get .sp) (-4 * l.length) with
    | some (o, i) => [.store o i (2 * l.length)]
    | none => []
  | .pop l, s => match addr (s.get .sp) 0 with
    | some (o, i) => [.load o i (2 * l.length)]
    | none => []
  | .ls i, s => match s.fl.ls with
    | some true => .cond true :: stepEv i s
    | some false => [.cond false]
    | none => []
  | .ne i, s => match s.fl.eq with
    | some false => .cond true :: stepEv i s
    | some true => [.cond false]
    | none => []
  | .s i, s => stepEv i s
  | _, _ => []

/-- Events of a sequence of instructions; compare `steps`. -/
def stepsEv : List Ins → State D → List Ev
  | [], _ => []
  | i :: l, s => stepEv i s ++ match step i s with
    | some s => stepsEv l s
    | none => []

/-- Events of a loop; compare `doNe`. -/
def doNeEv (body : List Ins) : Nat → State D → List Ev
  | 0, _ => []
  | n + 1, s => stepsEv body s ++ match steps body s with
    | some s => match s.fl.eq with
      | some true => [.loop false]
      | some false => .loop true :: doNeEv body n s
      | none => []
    | none => []

/-- Events of a function body; `f` gives the functions that it calls and `fe` their events.  Compare `run`. -/
def runEv (f : Nat → State D → Option (State D)) (fe : Nat → State D → List Ev) : Nat → List Stmt → State D → List Ev
  | _, [], _ => []
  | n, .ins l :: t, s => stepsEv l s ++ match steps l s with
    | some s => runEv f fe n t s
    | none => []
  | n, .loop b :: t, s => doNeEv b 256 s ++ match doNe b 256 s with
    | some s => runEv f fe n t s
    | none => []
  | n, .call k :: t, s => fe k (s.set .lr (.a (.code n))) ++ match callFn (f k) n s with
    | some s => runEv f fe (n + 1) t s
    | none => []

/-- Events of `memset0`: one store of the whole range. -/
def memset0Ev (s : State D) : List Ev :=
  match addr s.r0 0, asW s.r2 with
  | some (o, i), some n => match D.known n with
    | some n => [.store o i (n / 2)]
    | none => []
  | _, _ => []

/-- Events of `kara_strd_mem_asm`; compare `karaF`. -/
def karaEv (D : Dom) : State D → List Ev :=
  runEv (fun _ => run (fun _ _ => none) 100 schoolbook_gen) (fun _ => runEv (fun _ _ => none) (fun _ _ => []) 100 schoolbook_gen) 0 kara_strd_mem_asm

/-- Events of `karatsuba_64x64`; compare `mulF`. -/
def mulEv (D : Dom) : State D → List Ev :=
  runEv (fun _ => run (fun _ _ => none) 200 schoolbook_16x16) (fun _ => runEv (fun _ _ => none) (fun _ _ => []) 200 schoolbook_16x16) 100
    karatsuba_64x64

/-- Events of `toom_cook_4way_mem_asm`; compare `toomF`. -/
def toomEv (D : Dom) : State D → List Ev :=
  runEv (fun | 0 => mulF D | 1 => memset0 | _ => fun _ => none) (fun | 0 => mulEv D | 1 => memset0Ev | _ => fun _ => []) 0
    toom_cook_4way_mem_asm

/-- Events of `KeccakF1600_StatePermute`; compare `Keccak.permF`. -/
def permEv (D : Dom) (s : State D) : List Ev :=
  runEv (fun _ _ => none) (fun _ _ => []) 0 Keccak.KeccakP1600_StatePermute (s.set .r1 (.a (.ptr 1 0)))

end Saber.Arm
