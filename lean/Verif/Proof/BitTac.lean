import Verif.Proof.Bits
import Verif.Model.Params
/-!
# A tactic for concrete bit-level goals
-/
namespace Saber
open Lean Meta Simp

/-- Evaluate `Nat.testBit` on literals (by definitional unfolding). -/
dsimproc_decl reduceTestBit (Nat.testBit _ _) := fun e => do
  unless e.isAppOfArity ``Nat.testBit 2 do return .continue
  let some m ← Nat.fromExpr? e.appFn!.appArg! | return .continue
  let some n ← Nat.fromExpr? e.appArg! | return .continue
  return .done (toExpr (m.testBit n))

/-- Compute one bit of an expression built from shifts, masks and ors with literal arguments. -/
macro "bits_tac" : tactic => `(tactic|
  simp only [reduceTestBit, List.getD_cons_zero, List.getD_cons_succ, n8, n16, BitVec.getLsbD_ofNat,
    Nat.testBit_or, Nat.testBit_and, Nat.testBit_shiftLeft, Nat.testBit_shiftRight,
    Nat.reduceDiv, Nat.reduceMul, Nat.reduceAdd, Nat.reduceMod, Nat.reduceLT, Nat.reduceSub, Nat.reduceLeDiff,
    Nat.reduceGT, Nat.reduceEqDiff,
    decide_true, decide_false, Bool.true_and, Bool.false_and, Bool.and_true, Bool.and_false, Bool.or_false,
    Bool.false_or, ge_iff_le, Nat.add_zero, Nat.zero_add])

end Saber
