import Verif.Proof.Avx.Transpose
import Verif.Proof.Arm.LSim
/-!
# Linear forms as symbolic vectors

All lanes of a vector are represented by the same linear form, over variables whose values depend on the lane.
-/
namespace Saber.Avx
open Saber.Arm (LF LH LRH lval forceN forceN_eq)

/-- Multiplication when one factor is a constant. -/
def mulAny : LH → LH → LH
  | .c n, b => b.scale n
  | a, b => a.mul b

theorem LRH_mulAny {v : Nat → Int} {a b : BitVec 16} {a' b' : LH} (ha : LRH v a a') (hb : LRH v b b') : LRH v (a * b) (mulAny a' b') := by
  cases a' with
  | c n =>
    have h : a.toNat = n := ha
    subst h
    exact hb.scale _ (by rw [BitVec.toNat_mul, Nat.mul_comm])
  | lin k l => exact ha.mul hb
  | unk => exact ha.mul hb

/-- Symbolic vectors: linear forms. -/
def vlin : SDom where
  V := LH
  op2
    | .add, a, b => a.add b
    | .sub, a, b => a.sub b
    | .mullo, a, b => mulAny a b
    | _, _, _ => .unk
  sll a n := match Nat.ble n 15 with
    | true => a.scale (Nat.pow 2 n)
    | false => .unk
  srl a n := match Nat.ble n 16 with
    | true => a.shr n
    | false => .unk
  set1 n := .c (n.mod 65536)
  force := LH.force

/-- What a linear form says about a vector, for values `v l` of the variables in lane `l`. -/
def linR (v : Nat → Nat → Int) (a : Vec) (h : LH) : Prop := ∀ l : Fin 16, LRH (v l.val) (a l) h

def linSim (v : Nat → Nat → Int) : Sim vlin where
  R := linR v
  op2 o a b a' b' ha hb := by
    cases o
    case add => exact fun l => (ha l).add (hb l)
    case sub => exact fun l => (ha l).sub (hb l)
    case mullo => exact fun l => LRH_mulAny (ha l) (hb l)
    all_goals exact fun _ => trivial
  sll a a' n ha l := by
    show LRH _ (a l <<< n) (match Nat.ble n 15 with
      | true => a'.scale (Nat.pow 2 n)
      | false => .unk)
    split
    · exact (ha l).scale _ (by rw [BitVec.toNat_shiftLeft, Nat.shiftLeft_eq]; rfl)
    · trivial
  srl a a' n ha l := by
    show LRH _ (a l >>> n) (match Nat.ble n 16 with
      | true => a'.shr n
      | false => .unk)
    split
    · refine (ha l).shr n (Arm.ModEq.of_eq ?_)
      rw [BitVec.toNat_ushiftRight, Nat.shiftRight_eq_div_pow]
      push_cast
      rfl
    · trivial
  set1 n l := by
    show (BitVec.ofNat 16 n).toNat = n.mod 65536
    rw [BitVec.toNat_ofNat]
    rfl
  force := Arm.LH.force_eq

/-! ### Symbolic vectors that are products -/

/-- Symbolic vectors in a schoolbook multiplication. -/
inductive SH
  | a (i : Nat)
  | b (j : Nat)
  | h (x : LH)

def SH.lh : SH → LH
  | .h x => x
  | _ => .unk

/-- Variable `16 i + j` stands for the product of `a i` and `b j`. -/
def SH.mul : SH → SH → LH
  | .a i, .b j => .lin 16 [(Nat.add (Nat.mul 16 i) j, 1)]
  | _, _ => .unk

def SH.force {α : Type} (x : SH) (k : SH → α) : α := match x with
  | .a i => k (.a i)
  | .b i => k (.b i)
  | .h x => x.force fun x => k (.h x)

def vprod : SDom where
  V := SH
  op2
    | .add, a, b => .h (a.lh.add b.lh)
    | .mullo, a, b => .h (a.mul b)
    | _, _, _ => .h .unk
  sll _ _ := .h .unk
  srl _ _ := .h .unk
  set1 n := .h (.c (n.mod 65536))
  force := SH.force

/-- What a symbolic vector says, for inputs `a`, `b` and values `v l` of the variables in lane `l`. -/
def prodR (a b : List Vec) (v : Nat → Nat → Int) (x : Vec) : SH → Prop
  | .a i => i < 16 ∧ ∀ l : Fin 16, x l = el a i l.val
  | .b i => i < 16 ∧ ∀ l : Fin 16, x l = el b i l.val
  | .h y => linR v x y

theorem prodR.lh {a b : List Vec} {v : Nat → Nat → Int} {x : Vec} {y : SH} (h : prodR a b v x y) : linR v x y.lh := by
  cases y
  case h => exact h
  all_goals exact fun _ => trivial

def prodSim (a b : List Vec) (v : Nat → Nat → Int)
    (hv : ∀ l i j, l < 16 → i < 16 → j < 16 → v l (16 * i + j) = (el a i l).toNat * (el b j l).toNat) : Sim vprod where
  R := prodR a b v
  op2 o x y x' y' hx hy := by
    cases o
    case add => exact fun l => (hx.lh l).add (hy.lh l)
    case mullo =>
      intro l
      show LRH _ (x l * y l) (x'.mul y')
      cases x' with
      | h z => trivial
      | b i => trivial
      | a i => cases y' with
      | h z => trivial
      | a j => trivial
      | b j =>
        refine ⟨le_refl _, ?_⟩
        rw [hx.2 l, hy.2 l, BitVec.toNat_mul, Int.natCast_mod, Int.natCast_mul]
        refine (Int.mod_modEq _ _).trans (Arm.ModEq.of_eq ?_)
        rw [Arm.lval_cons, Arm.lval_nil]
        simp only [Nat.cast_one, one_mul, add_zero]
        exact (hv l.val i j l.isLt hx.1 hy.1).symm
    all_goals exact fun _ => trivial
  sll _ _ _ _ _ := trivial
  srl _ _ _ _ _ := trivial
  set1 n l := by
    show (BitVec.ofNat 16 n).toNat = n.mod 65536
    rw [BitVec.toNat_ofNat]
    rfl
  force x k := by
    cases x
    case h x => exact Arm.LH.force_eq x fun x => k (.h x)
    all_goals rfl

end Saber.Avx
