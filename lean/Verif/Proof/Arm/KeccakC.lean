import Verif.Proof.Arm.RDom
import Verif.Proof.Arm.Mem
import Verif.Spec.Keccak
/-!
# Symbolic runs of the Keccak rounds
-/
namespace Saber.Arm.Keccak
open Saber.Spec.Keccak (rhoOffset)

/-! ### A round on words that hold the even and the odd bits of the lanes -/

/-- `rhoOffset x y % 64` at `5 y + x`. -/
def rhoTab : List Nat := [0, 1, 62, 28, 27, 36, 44, 6, 55, 20, 3, 10, 43, 25, 39, 41, 45, 15, 21, 8, 18, 2, 61, 56, 14]

def rhoN (x y : Nat) : Nat := rhoTab.getD (Nat.add (Nat.mul 5 y) x) 0

section
variable (D : Dom)

def xr (a b : D.W) : D.W := D.op2 .eor a b
def rr (n : Nat) (a : D.W) : D.W := D.op2 .ror a (D.const n)

def colG (a : Nat → Nat → Nat → D.W) (x h : Nat) : D.W := xr D (xr D (xr D (xr D (a x 0 h) (a x 1 h)) (a x 2 h)) (a x 3 h)) (a x 4 h)

def rotD (h : Nat) (c0 c1 : D.W) : D.W := match h with
  | 0 => rr D 31 c1
  | _ => c0

/-- theta -/
def thetaG (a : Nat → Nat → Nat → D.W) (x y h : Nat) : D.W :=
  D.force (colG D a ((x.add 4).mod 5) h) fun c => D.force (colG D a ((x.add 1).mod 5) ((h.add 1).mod 2)) fun c' =>
  D.force (rotD D h c' c') fun d => xr D (a x y h) (xr D c d)

/-- rho and pi -/
def rhoPiG (a : Nat → Nat → Nat → D.W) (x y h : Nat) : D.W :=
  let X := (x.add (Nat.mul 3 y)).mod 5
  forceN (rhoN X x) fun r => forceN ((h.add r).mod 2) fun h' =>
  D.force (thetaG D a X x h') fun t => rr D (Nat.sub 32 (((r.add h').sub h).div 2)) t

/-- chi -/
def chiG (a : Nat → Nat → Nat → D.W) (x y h : Nat) : D.W :=
  D.force (rhoPiG D a x y h) fun e0 => D.force (rhoPiG D a ((x.add 1).mod 5) y h) fun e1 =>
  D.force (rhoPiG D a ((x.add 2).mod 5) y h) fun e2 => xr D e0 (D.op2 .bic e2 e1)

/-- iota -/
def roundG (a : Nat → Nat → Nat → D.W) (rc : Nat → D.W) (x y h : Nat) : D.W :=
  match Nat.beq (x.add y) 0 with
  | true => xr D (chiG D a x y h) (rc h)
  | false => chiG D a x y h

end

/-! ### The places of the words after each round -/

def loc : Nat → Nat → Nat → Nat → Nat
  | 0, x, y, h => Nat.add (Nat.mul 2 (Nat.add (Nat.mul 5 y) x)) h
  | n + 1, x, y, h => forceN ((x.add (Nat.mul 2 y)).mod 5) fun y' => forceN ((h.add (rhoN x y')).mod 2) fun h' => loc n x y' h'

def rP (o : Nat) (off : Int) : Val RW := .a (.ptr o off)
def rO (o : Nat) : Val RW := .a (.opq o)
def rU : Val RW := .undef

def rvar (v : Nat) : RW := .lin 0 [Nat.mul 32 v]

def halfOf (i : Nat) (w : RW) : Cell RH := match Nat.beq (i.mod 2) 0 with
  | true => .half (.lo w)
  | false => .half (.hi w)

def fragOf (i : Nat) (a : Atom) : Cell RH := .frag a (Nat.beq (i.mod 2) 1)

/-- The stack during the loop: `mRC` and the saved registers. -/
def stackCell (it : Nat) (i : Nat) : Cell RH :=
  match i.div 2 with
  | 5 => fragOf i (.ptr 1 (Int.ofNat (Nat.mul 32 it)))
  | 6 => fragOf i (.opq 8)
  | 7 => fragOf i (.opq 9)
  | 8 => fragOf i (.opq 10)
  | 9 => fragOf i (.opq 11)
  | 10 => fragOf i (.opq 12)
  | 11 => fragOf i (.opq 7)
  | 12 => fragOf i (.opq 4)
  | 13 => fragOf i (.opq 5)
  | 14 => fragOf i (.opq 6)
  | 15 => fragOf i (.code 99)
  | _ => .undef

def rcW (i : Nat) : RW := .lin (roundConstants.getD i 0).toNat []

def roundObj (n : Nat) : List (Nat × (Nat → Cell RH)) :=
  [(100, fun i => halfOf i (rvar (i.div 2))), (98, fun i => halfOf i (rcW (i.div 2))), (32, stackCell (n.div 4))]

/-- The symbolic state before round `n`. -/
def roundK (n : Nat) : State rdom :=
  ⟨rP 0 0, rU, rU, rU, rU, rU, rU, rU, rU, rU, rU, rU, rU, rP 2 0, rU, rU, kmemOf (roundObj n), ⟨none, none⟩⟩

def roundOf : Nat → List Ins
  | 0 => KeccakRound0
  | 1 => KeccakRound1
  | 2 => KeccakRound2
  | _ => KeccakRound3

/-- The word `w` of the state in memory. -/
def wordAt (m : KM RH) (w : Nat) : RW := match KM.rd m 0 (Nat.mul 2 w), KM.rd m 0 (Nat.succ (Nat.mul 2 w)) with
  | some (.half a), some (.half b) => a.join b
  | _, _ => .unk

def RW.known : RW → Bool
  | .unk => false
  | _ => true

def atomEq : Atom → Atom → Bool
  | .ptr o i, .ptr o' i' => o == o' && i == i'
  | .code n, .code n' => n == n'
  | .opq n, .opq n' => n == n'
  | _, _ => false

/-- The second cell says no more than the first. -/
def cellLe : Option (Cell RH) → Cell RH → Bool
  | some _, .undef => true
  | some (.frag a b), .frag a' b' => atomEq a a' && b == b'
  | some (.half (.lo (.lin c []))), .half (.lo (.lin c' [])) => Nat.beq c c'
  | some (.half (.hi (.lin c []))), .half (.hi (.lin c' [])) => Nat.beq c c'
  | _, _ => false

def r5 : List Nat := [0, 1, 2, 3, 4]

def roundFinal (n : Nat) (s : State rdom) : Bool :=
  isP s.r0 0 0 && (isP s.sp 2 0 && ((List.range 50).all (fun w => RW.known (wordAt s.mem w)) &&
  ((List.range 98).all (fun i => cellLe (KM.rd s.mem 1 i) (halfOf i (rcW (i.div 2)))) &&
  ((List.range 32).all (fun i => cellLe (KM.rd s.mem 2 i) (stackCell (n.succ.div 4) i)) &&
  (r5.all fun x => r5.all fun y => [0, 1].all fun h => RW.eq (wordAt s.mem (loc ((n.mod 4).succ) x y h))
    (roundG rdom (fun x y h => rvar (loc (n.mod 4) x y h)) (fun h => rcW (Nat.add (Nat.mul 2 n) h)) x y h)))))) &&
  match n.mod 4 with
  | 3 => match s.fl.eq with
    | some b => b == Nat.beq n 23
    | none => false
  | _ => true

def roundCheck (n : Nat) : Bool := match steps (roundOf (n.mod 4)) (roundK n) with
  | none => false
  | some s => roundFinal n s

theorem roundCheck_0 : roundCheck 0 = true := by decide +kernel
theorem roundCheck_1 : roundCheck 1 = true := by decide +kernel
theorem roundCheck_2 : roundCheck 2 = true := by decide +kernel
theorem roundCheck_3 : roundCheck 3 = true := by decide +kernel
theorem roundCheck_4 : roundCheck 4 = true := by decide +kernel
theorem roundCheck_5 : roundCheck 5 = true := by decide +kernel
theorem roundCheck_6 : roundCheck 6 = true := by decide +kernel
theorem roundCheck_7 : roundCheck 7 = true := by decide +kernel
theorem roundCheck_8 : roundCheck 8 = true := by decide +kernel
theorem roundCheck_9 : roundCheck 9 = true := by decide +kernel
theorem roundCheck_10 : roundCheck 10 = true := by decide +kernel
theorem roundCheck_11 : roundCheck 11 = true := by decide +kernel
theorem roundCheck_12 : roundCheck 12 = true := by decide +kernel
theorem roundCheck_13 : roundCheck 13 = true := by decide +kernel
theorem roundCheck_14 : roundCheck 14 = true := by decide +kernel
theorem roundCheck_15 : roundCheck 15 = true := by decide +kernel
theorem roundCheck_16 : roundCheck 16 = true := by decide +kernel
theorem roundCheck_17 : roundCheck 17 = true := by decide +kernel
theorem roundCheck_18 : roundCheck 18 = true := by decide +kernel
theorem roundCheck_19 : roundCheck 19 = true := by decide +kernel
theorem roundCheck_20 : roundCheck 20 = true := by decide +kernel
theorem roundCheck_21 : roundCheck 21 = true := by decide +kernel
theorem roundCheck_22 : roundCheck 22 = true := by decide +kernel
theorem roundCheck_23 : roundCheck 23 = true := by decide +kernel

theorem roundCheck_ok : ∀ n, n < 24 → roundCheck n = true
  | 0, _ => roundCheck_0
  | 1, _ => roundCheck_1
  | 2, _ => roundCheck_2
  | 3, _ => roundCheck_3
  | 4, _ => roundCheck_4
  | 5, _ => roundCheck_5
  | 6, _ => roundCheck_6
  | 7, _ => roundCheck_7
  | 8, _ => roundCheck_8
  | 9, _ => roundCheck_9
  | 10, _ => roundCheck_10
  | 11, _ => roundCheck_11
  | 12, _ => roundCheck_12
  | 13, _ => roundCheck_13
  | 14, _ => roundCheck_14
  | 15, _ => roundCheck_15
  | 16, _ => roundCheck_16
  | 17, _ => roundCheck_17
  | 18, _ => roundCheck_18
  | 19, _ => roundCheck_19
  | 20, _ => roundCheck_20
  | 21, _ => roundCheck_21
  | 22, _ => roundCheck_22
  | 23, _ => roundCheck_23
  | n + 24, h => absurd h (by omega)

theorem rhoTab_ok : ∀ x y : Fin 5, rhoN x.val y.val = rhoOffset x y % 64 := by decide +kernel

theorem loc_four : ∀ x y : Fin 5, ∀ h : Fin 2, loc 4 x y h = loc 0 x y h := by decide +kernel

/-- The symbolic state at the call. -/
def permK : State rdom :=
  ⟨rP 0 0, rP 1 0, rU, rU, rO 4, rO 5, rO 6, rO 7, rO 8, rO 9, rO 10, rO 11, rO 12, rP 2 64, .a (.code 99), rU,
    kmemOf [(100, fun i => halfOf i (rvar (i.div 2))), (98, fun i => halfOf i (rcW (i.div 2))), (32, fun _ => .undef)], ⟨none, none⟩⟩

def stateLe (s : State rdom) (n : Nat) : Bool :=
  isP s.r0 0 0 && (isP s.sp 2 0 && ((List.range 50).all (fun w => RW.eq (wordAt s.mem w) (rvar w)) &&
  ((List.range 98).all (fun i => cellLe (KM.rd s.mem 1 i) (halfOf i (rcW (i.div 2)))) &&
  (List.range 32).all (fun i => cellLe (KM.rd s.mem 2 i) (stackCell (n.div 4) i)))))

def prologueCheck : Bool := match steps prologue permK with
  | none => false
  | some s => stateLe s 0

theorem prologueCheck_ok : prologueCheck = true := by decide +kernel

def epilogueCheck : Bool := match steps epilogue (roundK 24) with
  | none => false
  | some s => (List.range 50).all (fun w => RW.eq (wordAt s.mem w) (rvar w)) &&
    ((List.range 98).all (fun i => cellLe (KM.rd s.mem 1 i) (halfOf i (rcW (i.div 2)))) && (isP s.sp 2 64 && (isC s.pc 99 &&
    (saved s && isO s.ip 12))))

theorem epilogueCheck_ok : epilogueCheck = true := by decide +kernel

end Saber.Arm.Keccak
