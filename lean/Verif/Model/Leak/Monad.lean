import Verif.Model.Pack
import Verif.Model.Arm.Ev
/-!
# A semantics of the C code that records what an observer of memory addresses and branches sees

`LM α` is a computation together with the list of events that it has caused so far: every array access with its index and size of the
access, every branch with its direction, every iteration of a loop, every call of the random number generator with its length.  The
object that is accessed is given by the place in the program, so the events determine the addresses.  The operations have the names
of those of `CSem.lean`; the files `Model/Leak/*.lean` repeat the code of the model over them.
-/
namespace Saber.Leak

/-- What the observer sees. -/
inductive Event where
  /-- read access to element `i` of an array -/
  | read (i : Nat)
  /-- write access to element `i` of an array -/
  | write (i : Nat)
  /-- a branch was taken or not -/
  | branch (taken : Bool)
  /-- one iteration of a loop -/
  | iter
  /-- call of `randombytes` for `n` bytes at offset `off` -/
  | random (off n : Nat)
  /-- event of an assembly function -/
  | asm (e : Arm.Ev)
  /-- call of an external function with these offsets and lengths -/
  | call (name : String) (args : List Nat)
  deriving DecidableEq, Repr

/-- A computation with its events. -/
structure LM (α : Type) where
  /-- the events, first event first -/
  trace : List Event
  /-- the outcome -/
  out : CM α

/-- Sequential composition. -/
def LM.bind {α β : Type} (x : LM α) (f : α → LM β) : LM β :=
  match x.out with
  | .ok a => ⟨x.trace ++ (f a).trace, (f a).out⟩
  | .error e => ⟨x.trace, .error e⟩

instance : Monad LM where
  pure a := ⟨[], .ok a⟩
  bind := LM.bind

/-- A computation without events. -/
def lift {α : Type} (x : CM α) : LM α := ⟨[], x⟩

/-- A branch on a condition. -/
def branch (c : Bool) : LM Unit := ⟨[.branch c], .ok ()⟩

/-- `a[i]` as an rvalue; compare `Saber.rd`. -/
def rd {α : Type} (a : List α) (i : Nat) : LM α := ⟨[.read i], Saber.rd a i⟩

/-- `a[i] = v`; compare `Saber.wr`. -/
def wr {α : Type} (a : List α) (i : Nat) (v : α) : LM (List α) := ⟨[.write i], Saber.wr a i v⟩

/-- Consecutive assignments; compare `Saber.wrs`. -/
def wrs {α : Type} (a : List α) (i : Nat) : List α → LM (List α)
  | [] => pure a
  | v :: vs => do
    let a' ← wr a i v
    wrs a' (i + 1) vs

/-- `for (i = 0; i < n; i++) body`; compare `Saber.loop`. -/
def loop {σ : Type} : Nat → σ → (Nat → σ → LM σ) → LM σ
  | 0, s, _ => pure s
  | n + 1, s, body => do
    let s' ← loop n s body
    let _ ← (⟨[.iter], .ok ()⟩ : LM Unit)
    body n s'

/-- `memcpy`; compare `Saber.memcpy`. -/
def memcpy {α : Type} (dst : List α) (doff : Nat) (src : List α) (soff n : Nat) : LM (List α) :=
  loop n dst fun i dst => do
    let v ← rd src (soff + i)
    wr dst (doff + i) v

/-- `memset`; compare `Saber.memset`. -/
def memset {α : Type} (dst : List α) (doff : Nat) (v : α) (n : Nat) : LM (List α) :=
  loop n dst fun i dst => wr dst (doff + i) v

/-- `a[i] += v`; compare `Saber.addTo`. -/
def addTo {w : Nat} (a : List (BitVec w)) (i : Nat) (v : BitVec w) : LM (List (BitVec w)) := do
  let x ← rd a i
  wr a i (x + v)

/-- `a[i]` promoted to `int`; compare `Saber.rdN`. -/
def rdN {w : Nat} (a : List (BitVec w)) (i : Nat) : LM Nat := do
  let v ← rd a i
  pure v.toNat

/-- signed `a + b` -/
def iadd (a b : Int) : LM Int := lift (Saber.iadd a b)
/-- signed `a - b` -/
def isub (a b : Int) : LM Int := lift (Saber.isub a b)
/-- signed `a * b` -/
def imul (a b : Int) : LM Int := lift (Saber.imul a b)
/-- signed `a << k` -/
def ishl (a : Int) (k : Nat) : LM Int := lift (Saber.ishl a k)

end Saber.Leak
