import Verif.Proof.Arm.KSim
import Verif.Proof.Arm.RDom
/-!
# The machine follows the symbolic machine of sums of rotated words
-/
namespace Saber.Arm

/-- The value of a variable with its rotation. -/
def keyVal (e : Nat → BitVec 32) (k : Nat) : BitVec 32 := (e (k / 32)).rotateRight (k % 32)

/-- The value of a sum. -/
def sumVal (e : Nat → BitVec 32) : List Nat → BitVec 32
  | [] => 0
  | k :: l => keyVal e k ^^^ sumVal e l

section
variable {e : Nat → BitVec 32}

theorem xor_cancel (x y : BitVec 32) : x ^^^ (x ^^^ y) = y := by
  rw [← BitVec.xor_assoc, BitVec.xor_self, BitVec.zero_xor]

theorem xor_left_comm (x y z : BitVec 32) : x ^^^ (y ^^^ z) = y ^^^ (x ^^^ z) := by
  rw [← BitVec.xor_assoc, BitVec.xor_comm x y, BitVec.xor_assoc]

theorem sumVal_insK (k : Nat) (l : List Nat) : sumVal e (insK k l) = keyVal e k ^^^ sumVal e l := by
  induction l with
  | nil => rfl
  | cons a l ih =>
    rw [insK]
    split
    · rfl
    · split
      · rename_i h
        have h : k = a := Nat.beq_eq.mp h
        subst h
        rw [sumVal, xor_cancel]
      · rw [sumVal, ih, sumVal, xor_left_comm]

theorem sumVal_mergeK (a b : List Nat) : sumVal e (mergeK a b) = sumVal e a ^^^ sumVal e b := by
  induction a with
  | nil => rw [mergeK, sumVal]; exact (BitVec.zero_xor).symm
  | cons k a ih => rw [mergeK, sumVal_insK, ih, sumVal, BitVec.xor_assoc]

theorem getLsbD_ror (x : BitVec 32) (n i : Nat) (hi : i < 32) : (x.rotateRight n).getLsbD i = x.getLsbD ((i + n) % 32) := by
  rw [BitVec.getLsbD_rotateRight, Bool.cond_decide]
  have hn : n % 32 < 32 := Nat.mod_lt _ (by decide)
  split
  · congr 1
    omega
  · rw [decide_eq_true hi, Bool.true_and]
    congr 1
    omega

theorem ror_xor (x y : BitVec 32) (n : Nat) : (x ^^^ y).rotateRight n = x.rotateRight n ^^^ y.rotateRight n := by
  apply BitVec.eq_of_getLsbD_eq
  intro i hi
  rw [getLsbD_ror _ _ _ hi, BitVec.getLsbD_xor, BitVec.getLsbD_xor, getLsbD_ror _ _ _ hi, getLsbD_ror _ _ _ hi]

theorem ror_ror (x : BitVec 32) (m n : Nat) : (x.rotateRight m).rotateRight n = x.rotateRight ((m + n) % 32) := by
  apply BitVec.eq_of_getLsbD_eq
  intro i hi
  rw [getLsbD_ror _ _ _ hi, getLsbD_ror _ _ _ (Nat.mod_lt _ (by decide)), getLsbD_ror _ _ _ hi]
  congr 1
  omega

theorem ror_zero (n : Nat) : (0 : BitVec 32).rotateRight n = 0 := by
  apply BitVec.eq_of_getLsbD_eq
  intro i hi
  rw [getLsbD_ror _ _ _ hi]
  simp

theorem sumVal_rotK (n : Nat) (l : List Nat) : sumVal e (rotK n l) = (sumVal e l).rotateRight n := by
  induction l with
  | nil => exact (ror_zero n).symm
  | cons k l ih =>
    rw [rotK, sumVal_insK, ih, sumVal, ror_xor]
    congr 1
    show keyVal e (32 * (k / 32) + (k + n) % 32) = _
    rw [keyVal, keyVal, ror_ror]
    rw [show (32 * (k / 32) + (k + n) % 32) / 32 = k / 32 by omega, show (32 * (k / 32) + (k + n) % 32) % 32 = (k % 32 + n) % 32 by omega]

theorem eqK_eq {a b : List Nat} (h : eqK a b = true) : a = b := by
  induction a generalizing b with
  | nil => cases b with
    | nil => rfl
    | cons q b => cases h
  | cons p a ih => cases b with
    | nil => cases h
    | cons q b =>
      rw [eqK, Bool.and_eq_true] at h
      rw [ih h.2, show p = q from Nat.beq_eq.mp h.1]

theorem RW.eq_eq {a b : RW} (h : a.eq b = true) : a = b := by
  cases a <;> cases b <;> simp only [RW.eq, Bool.and_eq_true, Bool.false_eq_true] at h
  · rw [eqK_eq h.2, Nat.beq_eq.mp h.1]
  · rw [eqK_eq h.2.1, eqK_eq h.2.2.1, eqK_eq h.2.2.2, Nat.beq_eq.mp h.1]

theorem forceK_eq {α : Type} (l : List Nat) (k : List Nat → α) : forceK l k = k l := by
  induction l generalizing k with
  | nil => rfl
  | cons a l ih => rw [forceK, forceN_eq, ih]

theorem RW.force_eq {α : Type} (w : RW) (k : RW → α) : w.force k = k w := by
  cases w <;> simp only [RW.force, forceN_eq, forceK_eq]

/-- What a symbolic word says about a word. -/
def RRW (e : Nat → BitVec 32) (x : BitVec 32) : RW → Prop
  | .lin c l => c < 4294967296 ∧ x = BitVec.ofNat 32 c ^^^ sumVal e l
  | .chi c l a b => c < 4294967296 ∧ x = BitVec.ofNat 32 c ^^^ sumVal e l ^^^ (sumVal e b &&& ~~~ sumVal e a)
  | .unk => True

def RRH (e : Nat → BitVec 32) (h : BitVec 16) : RH → Prop
  | .lo w => ∃ x, RRW e x w ∧ h = clo x
  | .hi w => ∃ x, RRW e x w ∧ h = chi x

theorem RRW.unique {x y : BitVec 32} {w : RW} (hw : w.eq w = true) (h : RRW e x w) (h' : RRW e y w) : x = y := by
  cases w with
  | lin c l => exact h.2.trans h'.2.symm
  | chi c l a b => exact h.2.trans h'.2.symm
  | unk => cases hw

theorem RRH.join {l h : BitVec 16} {l' h' : RH} (hl : RRH e l l') (hh : RRH e h h') : RRW e (h ++ l) (l'.join h') := by
  cases l' with
  | hi w => cases h' <;> trivial
  | lo w =>
    cases h' with
    | lo w' => trivial
    | hi w' =>
      rw [RH.join]
      split
      · rename_i he
        have := RW.eq_eq he
        subst this
        obtain ⟨x, hx, rfl⟩ := hl
        obtain ⟨y, hy, rfl⟩ := hh
        have := RRW.unique he hx hy
        subst this
        rw [join_lo_hi]
        exact hx
      · trivial

theorem ofNat_xor (a b : Nat) : BitVec.ofNat 32 (a.xor b) = BitVec.ofNat 32 a ^^^ BitVec.ofNat 32 b := by
  show BitVec.ofNat 32 (a ^^^ b) = _
  apply BitVec.eq_of_getLsbD_eq
  intro i hi
  rw [BitVec.getLsbD_xor, BitVec.getLsbD_ofNat, BitVec.getLsbD_ofNat, BitVec.getLsbD_ofNat, Nat.testBit_xor, decide_eq_true hi]
  simp

theorem xor_lt32 {a b : Nat} (ha : a < 4294967296) (hb : b < 4294967296) : a.xor b < 4294967296 := Nat.xor_lt_two_pow (n := 32) ha hb

theorem xor_mix (a b c d : BitVec 32) : a ^^^ b ^^^ (c ^^^ d) = (a ^^^ c) ^^^ (b ^^^ d) := by
  rw [BitVec.xor_assoc, BitVec.xor_assoc, xor_left_comm b]

theorem rop2_ok (o : Op2) {x x' : BitVec 32} {w w' : RW} (h : RRW e x w) (h' : RRW e x' w') : RRW e (cop2 o x x') (rop2 o w w') := by
  unfold rop2
  split
  · obtain ⟨h1, rfl⟩ := h
    obtain ⟨h2, rfl⟩ := h'
    exact ⟨xor_lt32 h1 h2, by rw [cop2, ofNat_xor, sumVal_mergeK, xor_mix]⟩
  · obtain ⟨h1, rfl⟩ := h
    obtain ⟨h2, rfl⟩ := h'
    exact ⟨xor_lt32 h1 h2, by rw [cop2, ofNat_xor, sumVal_mergeK, ← BitVec.xor_assoc, xor_mix]⟩
  · obtain ⟨h1, rfl⟩ := h
    obtain ⟨h2, rfl⟩ := h'
    exact ⟨xor_lt32 h2 h1, by rw [cop2, ofNat_xor, sumVal_mergeK, BitVec.xor_comm, ← BitVec.xor_assoc, xor_mix]⟩
  · obtain ⟨h1, rfl⟩ := h
    obtain ⟨h2, rfl⟩ := h'
    refine ⟨by decide, ?_⟩
    rw [cop2, sumVal]
    simp
  · obtain ⟨h1, rfl⟩ := h
    obtain ⟨h2, rfl⟩ := h'
    refine ⟨by decide, ?_⟩
    rw [cop2, sumVal_rotK, sumVal]
    rename_i n
    have : (BitVec.ofNat 32 n ^^^ 0).toNat = n := by simp; omega
    rw [this]
    show _ = 0 ^^^ BitVec.rotateRight _ (n % 256)
    rw [BitVec.zero_xor]
    exact BitVec.zero_xor.symm
  · trivial

/-- The machine follows the symbolic machine. -/
def rSim (e : Nat → BitVec 32) : Sim rdom where
  RH := RRH e
  RW := RRW e
  lo h := ⟨_, h, rfl⟩
  hi h := ⟨_, h, rfl⟩
  join h h' := h.join h'
  zero := ⟨0, ⟨by decide, (BitVec.zero_xor (x := 0#32)).symm⟩, rfl⟩
  const n := by
    refine ⟨Nat.mod_lt _ (by decide), ?_⟩
    apply BitVec.eq_of_toNat_eq
    show _ = (BitVec.ofNat 32 (n % 4294967296) ^^^ 0#32).toNat
    simp
  known {v w n} h eq := by
    cases w with
    | chi c l a b => simp [rdom] at eq
    | unk => simp [rdom] at eq
    | lin c l =>
      cases l with
      | cons a l => simp [rdom] at eq
      | nil =>
        have : some c = some n := eq
        simp only [Option.some.injEq] at this
        subst this
        obtain ⟨h1, rfl⟩ := h
        show (BitVec.ofNat 32 c ^^^ 0#32).toNat = _
        simp
        omega
  op1 op _ _ h := by cases op <;> first | exact h | trivial
  op2 op _ _ _ _ h h' := rop2_ok op h h'
  op3 _ _ _ _ _ _ _ _ _ _ := trivial
  wr {m o i c m'} h := by
    obtain ⟨m'', e1, e2, e3⟩ := KM.wrK_rd m o i c _ _ h
    cases e1
    exact ⟨e2, e3⟩
  force w k := RW.force_eq w k

end

end Saber.Arm
