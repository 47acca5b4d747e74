import Verif.Proof.Arm.KDom
import Verif.Model.Arm.Keccak
/-!
# Symbolic execution of the assembly: sums of rotated words

A word is represented by a sum (exclusive or) of a constant and of rotated variables, or by such a sum plus a product `c ∧ ¬ b` of two sums.
-/
namespace Saber.Arm

/-- Add or remove a variable with its rotation: `32 v + r` stands for variable `v` rotated to the right by `r`. -/
def insK (k : Nat) : List Nat → List Nat
  | [] => [k]
  | a :: l => match Nat.blt k a with
    | true => k :: a :: l
    | false => match Nat.beq k a with
      | true => l
      | false => a :: insK k l

def mergeK : List Nat → List Nat → List Nat
  | [], b => b
  | k :: a, b => insK k (mergeK a b)

/-- Rotate to the right. -/
def rotK (n : Nat) : List Nat → List Nat
  | [] => []
  | k :: a => insK (Nat.add (Nat.mul 32 (k.div 32)) ((k.add n).mod 32)) (rotK n a)

def eqK : List Nat → List Nat → Bool
  | [], [] => true
  | a :: l, b :: m => Nat.beq a b && eqK l m
  | _, _ => false

def forceK {α : Type} : List Nat → (List Nat → α) → α
  | [], k => k []
  | a :: l, k => forceN a fun a => forceK l fun l => k (a :: l)

/-- Symbolic words: `c ⊕ l`, `c ⊕ l ⊕ (b ∧ ¬ a)`, or unknown. -/
inductive RW
  | lin (c : Nat) (l : List Nat)
  | chi (c : Nat) (l a b : List Nat)
  | unk

def RW.eq : RW → RW → Bool
  | .lin c l, .lin c' l' => Nat.beq c c' && eqK l l'
  | .chi c l a b, .chi c' l' a' b' => Nat.beq c c' && (eqK l l' && (eqK a a' && eqK b b'))
  | _, _ => false

def RW.force {α : Type} (w : RW) (k : RW → α) : α :=
  match w with
  | .lin c l => forceN c fun c => forceK l fun l => k (.lin c l)
  | .chi c l a b => forceN c fun c => forceK l fun l => forceK a fun a => forceK b fun b => k (.chi c l a b)
  | .unk => k .unk

/-- Symbolic halfwords: the lower or the upper half of a word. -/
inductive RH
  | lo (w : RW)
  | hi (w : RW)

def RH.join : RH → RH → RW
  | .lo w, .hi w' => match w.eq w' with
    | true => w
    | false => .unk
  | _, _ => .unk

def rop2 : Op2 → RW → RW → RW
  | .eor, .lin c l, .lin c' l' => .lin (c.xor c') (mergeK l l')
  | .eor, .lin c l, .chi c' l' a b => .chi (c.xor c') (mergeK l l') a b
  | .eor, .chi c' l' a b, .lin c l => .chi (c.xor c') (mergeK l l') a b
  | .bic, .lin 0 b, .lin 0 a => .chi 0 [] a b
  | .ror, .lin 0 l, .lin n [] => .lin 0 (rotK (n.mod 256) l)
  | _, _, _ => .unk

/-- The symbolic machine. -/
def rdom : Dom where
  W := RW
  H := RH
  M := KM RH
  lo := .lo
  hi := .hi
  join := RH.join
  zero := .lo (.lin 0 [])
  const n := .lin (n.mod 4294967296) []
  known
    | .lin n [] => some n
    | _ => none
  op1
    | .id, x => x
    | _, _ => .unk
  op2 := rop2
  op3 _ _ _ _ := .unk
  rd := KM.rd
  wr m o i c := KM.wrK m o i c some
  force := RW.force

end Saber.Arm
