/-!
# Events of the machine

What an observer of addresses and branches sees of a run of the machine of `Model/Arm/Machine.lean`; see `Model/Arm/Obs.lean`.  This file models no
function of the repository.
-/
namespace Saber.Arm

/-- Events; positions and sizes are in halfwords. -/
inductive Ev
  | load (obj pos size : Nat)
  | store (obj pos size : Nat)
  | cond (executed : Bool)
  | loop (again : Bool)
  deriving DecidableEq, Repr

end Saber.Arm
