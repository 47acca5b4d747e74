import Verif.CSem
/-!
# Straight-line code with AVX2 intrinsics

This file models no function of the repository.  It gives the meaning of the intrinsics used in
`AVX_Implementation_KEM/polymul` and `AVX_Implementation_KEM/SABER_indcpa.c`, after the Intel intrinsics guide.

The multiplication of the AVX2 implementation consists of long sequences of assignments to `__m256i` variables and array elements.  Such
a sequence is modelled by its syntax, a list of `Stmt`, and `exec` runs it.
-/
namespace Saber.Avx

/-- `__m256i` as 16 lanes of 16 bits; lane 0 holds the least significant bits. -/
abbrev Vec := Fin 16 → BitVec 16

/-- Intrinsics with two arguments. -/
inductive Op2
  /-- `_mm256_add_epi16` -/
  | add
  /-- `_mm256_sub_epi16` -/
  | sub
  /-- `_mm256_mullo_epi16` -/
  | mullo
  /-- `_mm256_unpacklo_epi16`, `_mm256_unpacklo_epi32`, `_mm256_unpacklo_epi64`; `k` is the number of lanes of an element, as a power of two -/
  | unpacklo (k : Nat)
  /-- `_mm256_unpackhi_epi16`, `_mm256_unpackhi_epi32`, `_mm256_unpackhi_epi64` -/
  | unpackhi (k : Nat)
  /-- `_mm256_permute2f128_si256` with constant 0x20 (the lower halves of both arguments) -/
  | permute0x20
  /-- `_mm256_permute2f128_si256` with constant 0x31 (the upper halves of both arguments) -/
  | permute0x31

/-- Lane `l` of the result of an unpack instruction comes from lane `unpackLane k hi l` of the first (`false`) or second (`true`) argument.
Within each 128-bit half, the elements of `2^k` lanes of the lower (or upper) 64 bits of the two arguments alternate. -/
def unpackLane (k : Nat) (hi : Bool) (l : Nat) : Bool × Nat :=
  let half := l / 8
  let i := l % 8
  let e := i / 2 ^ k
  (e % 2 == 1, 8 * half + (if hi then 4 else 0) + 2 ^ k * (e / 2) + i % 2 ^ k)

/-- Where lane `l` of the result of an operation that only moves lanes comes from. -/
def Op2.lane : Op2 → Nat → Bool × Nat
  | .unpacklo k, l => unpackLane k false l
  | .unpackhi k, l => unpackLane k true l
  | .permute0x20, l => (8 ≤ l, l % 8)
  | .permute0x31, l => (8 ≤ l, 8 + l % 8)
  | _, l => (false, l)

/-- Lane `i` of a vector. -/
def Vec.lane (a : Vec) (i : Nat) : BitVec 16 := a ⟨i % 16, Nat.mod_lt _ (by decide)⟩

/-- The operations. -/
def Op2.eval : Op2 → Vec → Vec → Vec
  | .add, a, b => fun l => a l + b l
  | .sub, a, b => fun l => a l - b l
  | .mullo, a, b => fun l => a l * b l
  | o, a, b => fun l => match o.lane l.val with
    | (false, i) => a.lane i
    | (true, i) => b.lane i

/-- Expressions: local variables, array elements `p[i]`, vectors with 16 equal lanes, and intrinsics. -/
inductive Ex
  | v (x : Nat)
  | ix (p i : Nat)
  | set1 (n : Nat)
  | op2 (o : Op2) (a b : Ex)
  /-- `_mm256_slli_epi16` -/
  | slli (a : Ex) (n : Nat)
  /-- `_mm256_srli_epi16` -/
  | srli (a : Ex) (n : Nat)

/-- The assignment `l = e`, where `l` is a variable or an array element. -/
structure Stmt where
  l : Ex
  e : Ex

@[inherit_doc Stmt] infix:50 " ≔ " => Stmt.mk

/-- Contents of the local variables and of the arrays. -/
structure St where
  vars : List Vec
  arrs : List (List Vec)

/-- Value of an expression. -/
def Ex.eval (s : St) : Ex → CM Vec
  | .v x => rd s.vars x
  | .ix p i => do
    let a ← rd s.arrs p
    rd a i
  | .set1 n => .ok fun _ => BitVec.ofNat 16 n
  | .op2 o a b => do
    let x ← a.eval s
    let y ← b.eval s
    .ok (o.eval x y)
  | .slli a n => do
    let x ← a.eval s
    .ok fun l => x l <<< n
  | .srli a n => do
    let x ← a.eval s
    .ok fun l => x l >>> n

/-- One assignment. -/
def Stmt.exec (t : Stmt) (s : St) : CM St := do
  let y ← t.e.eval s
  match t.l with
  | .v x => do
    let vars ← wr s.vars x y
    .ok ⟨vars, s.arrs⟩
  | .ix p i => do
    let a ← rd s.arrs p
    let a ← wr a i y
    let arrs ← wr s.arrs p a
    .ok ⟨s.vars, arrs⟩
  | _ => .error .oob

/-- A sequence of assignments. -/
def exec : List Stmt → St → CM St
  | [], s => .ok s
  | t :: r, s => do
    let s ← t.exec s
    exec r s

/-- The unspecified content of an uninitialised `__m256i`. -/
def junkVec (tag i : Nat) : Vec := fun l => junk 16 tag (16 * i + l.val)

/-- An uninitialised local array of `n` vectors. -/
def uninitVecs (tag n : Nat) : List Vec := (List.range n).map (junkVec tag)

/-- Run a sequence of assignments with `n` uninitialised local variables on the given arrays; the new contents of the arrays are returned. -/
def run (n : Nat) (arrs : List (List Vec)) (l : List Stmt) : CM (List (List Vec)) := do
  let s ← exec l ⟨uninitVecs 90 n, arrs⟩
  .ok s.arrs

/-- Call of a function on the pointer `m + off`; `f` gets the array from there on. -/
def onSlice {α : Type} (m : List α) (off : Nat) (f : List α → CM (List α)) : CM (List α) := do
  let r ← f (m.drop off)
  .ok (m.take off ++ r)

/-! Abbreviations for expressions. -/

abbrev add := Ex.op2 .add
abbrev sub := Ex.op2 .sub
abbrev mullo := Ex.op2 .mullo
abbrev unpacklo16 := Ex.op2 (.unpacklo 0)
abbrev unpackhi16 := Ex.op2 (.unpackhi 0)
abbrev unpacklo32 := Ex.op2 (.unpacklo 1)
abbrev unpackhi32 := Ex.op2 (.unpackhi 1)
abbrev unpacklo64 := Ex.op2 (.unpacklo 2)
abbrev unpackhi64 := Ex.op2 (.unpackhi 2)
abbrev permute20 := Ex.op2 .permute0x20
abbrev permute31 := Ex.op2 .permute0x31
abbrev slli := Ex.slli
abbrev srli := Ex.srli

end Saber.Avx
