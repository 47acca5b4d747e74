import Verif.Model.Leak.Avx
import Verif.Model.X4.Kem
/-!
# Groups of statements of SaberX4: events

The combinators of `Model/X4` over the semantics with events; this file models no function of the repository.
-/
namespace Saber.Leak.X4
open Saber.X4

/-- A group of four statements with the indices 0, 1, 2, 3, in this order; compare `Saber.X4.four`. -/
def four {σ : Type} (s : σ) (f : Fin 4 → σ → LM σ) : LM σ := do
  let s ← f 0 s
  let s ← f 1 s
  let s ← f 2 s
  f 3 s

/-- `n` reads, in order; compare `Saber.X4.gather`. -/
def gather {α : Type} (n : Nat) (f : Nat → LM α) (d : α) : LM (Nat → α) :=
  loop n (fun _ => d) fun i g => do
    let x ← f i
    pure fun k => if k = i then x else g k

/-- Four reads `x_l = f l`; compare `Saber.X4.famM`. -/
def famM {α : Type} (f : Fin 4 → LM α) : LM (Fam α) := do
  let x0 ← f 0
  let x1 ← f 1
  let x2 ← f 2
  let x3 ← f 3
  pure fun l => if l = 0 then x0 else if l = 1 then x1 else if l = 2 then x2 else x3

/-- A group of four statements, number `l` of which changes the variable `x_l` only; compare `Saber.X4.fourA`. -/
def fourA {τ : Type} (x : Fam τ) (g : Fin 4 → τ → LM τ) : LM (Fam τ) :=
  four x fun l x => do
    let a ← g l (x l)
    pure (setFam x l a)

/-- `a[i][j]`; compare `Saber.X4.rd2`. -/
def rd2 {α : Type} (a : List (List α)) (i j : Nat) : LM α := do
  let ai ← rd a i
  rd ai j

/-- `data[n][m] = v`; compare `Saber.X4.wr2`. -/
def wr2 {α : Type} (data : List (List α)) (n m : Nat) (v : α) : LM (List (List α)) := do
  let row ← rd data n
  let row ← wr row m v
  wr data n row

end Saber.Leak.X4
