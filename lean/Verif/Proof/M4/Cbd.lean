import Verif.Model.M4.Cbd
import Verif.Proof.Cbd
/-!
# Cortex-M4: `cbd.c`
-/
namespace Saber.M4

theorem load_littleendian32_eq (x : List Byte) (off n : Nat) :
    load_littleendian32 x off n = (load_littleendian x off n >>= fun t => pure (t.setWidth 32)) := by
  unfold load_littleendian32 load_littleendian
  cases h0 : rd x off with
  | error e => rfl
  | ok x0 =>
    rw [ok_bind, ok_bind]
    generalize n - 1 = m
    induction m with
    | zero =>
      simp only [loop_zero, ok_bind, pure_eq_ok]
      congr 1
      rw [BitVec.setWidth_setWidth_of_le _ (by omega)]
    | succ m ih =>
      rw [loop_succ, loop_succ, ih]
      cases h1 : loop m (x0.setWidth 64) (fun i r => do
          let v ← rd x (off + (i + 1))
          pure (r ||| (v.setWidth 64 <<< (8 * (i + 1))))) with
      | error e => rfl
      | ok r =>
        rw [ok_bind, ok_bind, pure_eq_ok, ok_bind]
        cases h2 : rd x (off + (m + 1)) with
        | error e => rfl
        | ok v =>
          simp only [ok_bind, pure_eq_ok]
          congr 1
          apply BitVec.eq_of_getLsbD_eq
          intro i hi
          simp only [BitVec.getLsbD_or, BitVec.getLsbD_setWidth, BitVec.getLsbD_shiftLeft, hi, show i < 64 by omega, decide_true,
            Bool.true_and, show i - 8 * (m + 1) < 64 by omega, show i - 8 * (m + 1) < 32 by omega]

/-- The function is the one of the reference implementation. -/
theorem cbd_eq (P : PSet) (s : List (BitVec 16)) (buf : List Byte) (off : Nat) : M4.cbd P s buf off = Saber.cbd P s buf off := by
  cases P
  · rfl
  · simp only [M4.cbd, Saber.cbd, load_littleendian32_eq, bind_assoc, pure_bind]
  · simp only [M4.cbd, Saber.cbd, load_littleendian32_eq, bind_assoc, pure_bind]

end Saber.M4
