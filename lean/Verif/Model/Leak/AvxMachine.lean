import Verif.Model.Leak.Ref
import Verif.Model.Avx.Kem
import Verif.Model.Avx.AesNi
/-!
# Straight-line code with AVX2 intrinsics: events

The operations of `Model/Avx/Machine.lean` and the loads and stores of vectors with events; this file models no function of the repository.  An access
to an element of an array of vectors shows the number of the array and the index.  Local variables of the type `__m256i` show nothing: their places
are fixed by the program.
-/
namespace Saber.Leak.Avx
open Saber.Avx

/-- Value of an expression; compare `Saber.Avx.Ex.eval`. -/
def evalEx (s : St) : Ex → LM Vec
  | .v x => lift (Saber.rd s.vars x)
  | .ix p i => do
    let a ← rd s.arrs p
    rd a i
  | .set1 n => pure fun _ => BitVec.ofNat 16 n
  | .op2 o a b => do
    let x ← evalEx s a
    let y ← evalEx s b
    pure (o.eval x y)
  | .slli a n => do
    let x ← evalEx s a
    pure fun l => x l <<< n
  | .srli a n => do
    let x ← evalEx s a
    pure fun l => x l >>> n

/-- One assignment; compare `Saber.Avx.Stmt.exec`. -/
def execStmt (t : Stmt) (s : St) : LM St := do
  let y ← evalEx s t.e
  match t.l with
  | .v x => do
    let vars ← lift (Saber.wr s.vars x y)
    pure ⟨vars, s.arrs⟩
  | .ix p i => do
    let a ← rd s.arrs p
    let a ← wr a i y
    let arrs ← wr s.arrs p a
    pure ⟨s.vars, arrs⟩
  | _ => lift (.error .oob)

/-- A sequence of assignments; compare `Saber.Avx.exec`. -/
def exec : List Stmt → St → LM St
  | [], s => pure s
  | t :: r, s => do
    let s ← execStmt t s
    exec r s

/-- Compare `Saber.Avx.run`. -/
def run (n : Nat) (arrs : List (List Vec)) (l : List Stmt) : LM (List (List Vec)) := do
  let s ← exec l ⟨uninitVecs 90 n, arrs⟩
  pure s.arrs

/-- Call of a function on the pointer `m + off`, which is shown; compare `Saber.Avx.onSlice`. -/
def onSlice {α : Type} (m : List α) (off : Nat) (f : List α → LM (List α)) : LM (List α) := do
  let r ← (⟨.call "slice" [off] :: (f (m.drop off)).trace, (f (m.drop off)).out⟩ : LM (List α))
  pure (m.take off ++ r)

/-- `_mm256_loadu_si256` from `&row[off]`; compare `Saber.Avx.loadu`. -/
def loadu (row : List (BitVec 16)) (off : Nat) : LM Vec := ⟨[.call "loadu" [off]], Saber.Avx.loadu row off⟩

/-- The symmetric functions an implementation is linked with, with events; compare `Saber.Avx.Lib`. -/
structure LLib where
  /-- `shake128` or `prf` -/
  prf : List Byte → Nat → Nat → List Byte → Nat → Nat → LM (List Byte)
  /-- `sha3_256` or `hash_h` -/
  hash_h : List Byte → Nat → List Byte → Nat → Nat → LM (List Byte)
  /-- `sha3_512` or `hash_g` -/
  hash_g : List Byte → Nat → List Byte → Nat → Nat → LM (List Byte)

/-- Compare `Saber.Avx.fips202`. -/
def fips202 : LLib := ⟨Leak.shake128, Leak.sha3_256, Leak.sha3_512⟩

namespace AesNi
open Saber.Avx.AesNi

/-- `_mm_loadu_ps`, `_mm_load_si128`; compare `Saber.Avx.AesNi.load`. -/
def load (p : List Byte) (off : Nat) : LM M128 := ⟨[.call "load128" [off]], Saber.Avx.AesNi.load p off⟩

/-- `_mm_store_si128`, `_mm_storeu_si128`; compare `Saber.Avx.AesNi.store`. -/
def store (p : List Byte) (off : Nat) (a : M128) : LM (List Byte) := ⟨[.call "store128" [off]], Saber.Avx.AesNi.store p off a⟩

end AesNi

end Saber.Leak.Avx
