import Verif.Model.Arm.Obs
import Verif.Model.Arm.Polymul
import Verif.Model.Arm.Tc
/-!
# What an observer sees of the two multiplications that are declared and not called

This file models no function of the repository; compare `Model/Arm/Obs.lean`.
-/
namespace Saber.Arm

/-- Events of `polymul_asm`; compare `polymulF`. -/
def polymulEv (D : Dom) : State D → List Ev :=
  runEv (fun | 0 => mulF D | _ => fun _ => none) (fun | 0 => mulEv D | _ => fun _ => []) 0 polymul_asm

/-- Events of `toom_cook_4way_striding_asm`; compare `tcF`. -/
def tcEv (D : Dom) (ra : D.W) : State D → List Ev :=
  runEv (fun | 0 => karaF D | 1 => karaRA D ra | _ => fun _ => none) (fun | 0 => karaEv D | 1 => karaEv D | _ => fun _ => []) 0
    toom_cook_4way_striding_asm

end Saber.Arm
