import Verif.Proof.Arm.RSim
import Verif.Proof.Arm.KeccakC
/-!
# A Keccak round on words that hold the even and the odd bits of the lanes
-/
namespace Saber.Arm.Keccak
open Saber.Spec.Keccak

/-- The words `a x y 0` and `a x y 1` hold the even and the odd bits of lane `(x, y)`. -/
def Holds (a : Nat → Nat → Nat → BitVec 32) (S : Spec.Keccak.State) : Prop :=
  ∀ (x y : Fin 5) (z : Fin 64), (a x.val y.val (z.val % 2)).getLsbD (z.val / 2) = S x y z

theorem f5 (x : Fin 5) (k : Nat) : ((x.val.add k).mod 5) = (x + Fin.ofNat 5 k).val := by
  show (x.val + k) % 5 = (x.val + k % 5) % 5
  omega

theorem sub_one_eq (x : Fin 5) : x - 1 = x + Fin.ofNat 5 4 := by revert x; decide

/-- A word of the machine. -/
abbrev bv (x : conc.W) : BitVec 32 := x

variable {a : Nat → Nat → Nat → BitVec 32} {S : Spec.Keccak.State}

theorem colG_bits (h : Holds a S) (x : Fin 5) (z : Fin 64) : BitVec.getLsbD (colG conc a x.val (z.val % 2)) (z.val / 2) = thetaC S x z := by
  show (a x.val 0 _ ^^^ a x.val 1 _ ^^^ a x.val 2 _ ^^^ a x.val 3 _ ^^^ a x.val 4 _).getLsbD _ = _
  simp only [BitVec.getLsbD_xor]
  rw [thetaC, ← h x 0 z, ← h x 1 z, ← h x 2 z, ← h x 3 z, ← h x 4 z]
  rfl

theorem thetaG_eq (x y h : Nat) : bv (thetaG conc a x y h) =
    a x y h ^^^ (bv (colG conc a ((x.add 4).mod 5) h) ^^^ bv (rotD conc h (colG conc a ((x.add 1).mod 5) ((h.add 1).mod 2))
      (colG conc a ((x.add 1).mod 5) ((h.add 1).mod 2)))) := rfl

theorem rr_eq (n : Nat) (hn : n < 256) (x : BitVec 32) : rr conc n x = x.rotateRight n := by
  show x.rotateRight ((BitVec.ofNat 32 n).toNat % 256) = _
  rw [BitVec.toNat_ofNat]
  congr 1
  omega

theorem getLsbD_rr (n : Nat) (hn : n < 256) (x : BitVec 32) (i : Nat) (hi : i < 32) :
    BitVec.getLsbD (rr conc n x) i = x.getLsbD ((i + n) % 32) := by
  rw [rr_eq n hn, getLsbD_ror _ _ _ hi]

theorem theta_holds (h : Holds a S) : Holds (thetaG conc a) (theta S) := by
  intro x y z
  have hz := z.isLt
  show (bv _).getLsbD _ = _
  rw [thetaG_eq, BitVec.getLsbD_xor, BitVec.getLsbD_xor, h x y z, f5, f5, ← sub_one_eq, colG_bits h, theta]
  congr 2
  rw [← colG_bits h]
  have hz1 : (z - 1).val = (64 - 1 + z.val) % 64 := rfl
  have e : ((z.val % 2).add 1).mod 2 = (z - 1).val % 2 := by
    show (z.val % 2 + 1) % 2 = _
    omega
  rw [e]
  rcases Nat.mod_two_eq_zero_or_one z.val with h0 | h0
  · rw [h0]
    show BitVec.getLsbD (rr conc 31 _) _ = _
    refine (getLsbD_rr 31 (by decide) _ _ (by omega)).trans ?_
    congr 1
    omega
  · rw [h0]
    show BitVec.getLsbD _ _ = _
    congr 1
    omega

theorem rhoPiG_eq (x y h : Nat) : rhoPiG conc a x y h =
    rr conc (32 - (rhoN ((x + 3 * y) % 5) x + (h + rhoN ((x + 3 * y) % 5) x) % 2 - h) / 2)
      (thetaG conc a ((x + 3 * y) % 5) x ((h + rhoN ((x + 3 * y) % 5) x) % 2)) := by
  unfold rhoPiG
  simp only [forceN_eq]
  rfl

theorem rhoN_lt : ∀ x y : Fin 5, rhoN x.val y.val < 64 := by
  intro x y
  rw [rhoTab_ok]
  exact Nat.mod_lt _ (by decide)

theorem rhoPi_holds (h : Holds a S) : Holds (rhoPiG conc a) (Spec.Keccak.pi (rho (theta S))) := by
  intro x y z
  have hz := z.isLt
  rw [rhoPiG_eq]
  have hX : (x.val + 3 * y.val) % 5 = (x + 3 * y).val := by
    revert x y
    decide
  rw [hX]
  generalize hr : rhoN (x + 3 * y).val x.val = r
  have hr' : rhoOffset (x + 3 * y) x % 64 = r := by rw [← hr, rhoTab_ok]
  have hlt : r < 64 := by rw [← hr']; exact Nat.mod_lt _ (by decide)
  have hs : (z - Fin.ofNat 64 (rhoOffset (x + 3 * y) x)).val = (64 - r + z.val) % 64 := by
    show (64 - rhoOffset (x + 3 * y) x % 64 + z.val) % 64 = _
    rw [hr']
  show _ = theta S (x + 3 * y) x (z - Fin.ofNat 64 (rhoOffset (x + 3 * y) x))
  rw [← theta_holds h]
  refine (getLsbD_rr _ (by omega) _ _ (by omega)).trans ?_
  rw [hs]
  have e1 : (z.val % 2 + r) % 2 = (64 - r + z.val) % 64 % 2 := by omega
  rw [e1]
  congr 1
  omega

theorem chiG_eq (x y h : Nat) : bv (chiG conc a x y h) =
    bv (rhoPiG conc a x y h) ^^^ (bv (rhoPiG conc a ((x.add 2).mod 5) y h) &&& ~~~bv (rhoPiG conc a ((x.add 1).mod 5) y h)) := rfl

theorem chi_holds (h : Holds a S) : Holds (chiG conc a) (Spec.Keccak.chi (Spec.Keccak.pi (rho (theta S)))) := by
  intro x y z
  have hz := z.isLt
  show (bv _).getLsbD _ = _
  rw [chiG_eq, f5, f5, BitVec.getLsbD_xor, BitVec.getLsbD_and, BitVec.getLsbD_not, rhoPi_holds h, rhoPi_holds h, rhoPi_holds h, Spec.Keccak.chi,
    decide_eq_true (show z.val / 2 < 32 by omega), Bool.true_and, Bool.and_comm]
  rfl

theorem RC_table : ∀ ir : Fin 24, ∀ z : Fin 64, (roundConstants.getD (2 * ir.val + z.val % 2) 0).getLsbD (z.val / 2) = RC ir.val z := by
  decide +kernel

/-- The round constants of round `n`. -/
def rcC (n h : Nat) : BitVec 32 := roundConstants.getD (2 * n + h) 0

theorem round_holds {n : Nat} (hn : n < 24) (h : Holds a S) : Holds (roundG conc a (rcC n)) (round n S) := by
  intro x y z
  unfold roundG round iota
  by_cases h0 : x = 0 ∧ y = 0
  · rw [if_pos h0]
    obtain ⟨rfl, rfl⟩ := h0
    show BitVec.getLsbD (BitVec.xor _ _) _ = _
    refine (BitVec.getLsbD_xor ..).trans ?_
    exact congrArg₂ _ (chi_holds h 0 0 z) (RC_table ⟨n, hn⟩ z)
  · rw [if_neg h0]
    have : Nat.beq (x.val.add y.val) 0 = false := by
      cases hb : Nat.beq (x.val.add y.val) 0 with
      | false => rfl
      | true =>
        have : x.val + y.val = 0 := Nat.beq_eq.mp hb
        exact absurd ⟨Fin.ext (by show x.val = 0; omega), Fin.ext (by show y.val = 0; omega)⟩ h0
    rw [this]
    exact chi_holds h x y z

/-! ### A round of the symbolic machine -/

section
variable {D : Dom} {R : Sim D} {b : Nat → Nat → Nat → D.W}

theorem xr_sim {x x' : BitVec 32} {w w' : D.W} (h : R.RW x w) (h' : R.RW x' w') : R.RW (xr conc x x') (xr D w w') := R.op2 .eor h h'

theorem rr_sim (n : Nat) {x : BitVec 32} {w : D.W} (h : R.RW x w) : R.RW (rr conc n x) (rr D n w) := R.op2 .ror h (R.const n)

theorem colG_sim (h : ∀ x y h, R.RW (a x y h) (b x y h)) (x k : Nat) : R.RW (colG conc a x k) (colG D b x k) :=
  xr_sim (xr_sim (xr_sim (xr_sim (h x 0 k) (h x 1 k)) (h x 2 k)) (h x 3 k)) (h x 4 k)

theorem rotD_sim (k : Nat) {x x' : BitVec 32} {w w' : D.W} (h : R.RW x w) (h' : R.RW x' w') : R.RW (rotD conc k x x') (rotD D k w w') := by
  cases k with
  | zero => exact rr_sim 31 h'
  | succ k => exact h

theorem thetaG_sim (h : ∀ x y h, R.RW (a x y h) (b x y h)) (x y k : Nat) : R.RW (thetaG conc a x y k) (thetaG D b x y k) := by
  unfold thetaG
  simp only [R.force]
  exact xr_sim (h x y k) (xr_sim (colG_sim h _ _) (rotD_sim _ (colG_sim h _ _) (colG_sim h _ _)))

theorem rhoPiG_sim (h : ∀ x y h, R.RW (a x y h) (b x y h)) (x y k : Nat) : R.RW (rhoPiG conc a x y k) (rhoPiG D b x y k) := by
  unfold rhoPiG
  simp only [R.force, forceN_eq]
  exact rr_sim _ (thetaG_sim h _ _ _)

theorem chiG_sim (h : ∀ x y h, R.RW (a x y h) (b x y h)) (x y k : Nat) : R.RW (chiG conc a x y k) (chiG D b x y k) := by
  unfold chiG
  simp only [R.force]
  exact xr_sim (rhoPiG_sim h _ _ _) (R.op2 .bic (rhoPiG_sim h _ _ _) (rhoPiG_sim h _ _ _))

theorem roundG_sim (h : ∀ x y h, R.RW (a x y h) (b x y h)) {rc : Nat → BitVec 32} {rc' : Nat → D.W} (hr : ∀ h, R.RW (rc h) (rc' h)) (x y k : Nat) :
    R.RW (roundG conc a rc x y k) (roundG D b rc' x y k) := by
  unfold roundG
  split
  · exact xr_sim (chiG_sim h _ _ _) (hr k)
  · exact chiG_sim h _ _ _

end

end Saber.Arm.Keccak
