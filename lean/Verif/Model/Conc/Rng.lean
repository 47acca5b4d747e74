import Verif.Model.Rng
import Verif.Model.Kem
/-!
# Threads that share the random number generator (`Reference_Implementation_KEM/rng.c`)

`DRBG_ctx` (rng.c:14) is a global object without a lock: every call of `randombytes`, from every thread, reads and writes it byte by byte.
The functions of this file are `randombytes` and the functions it calls as sequences of single accesses to `DRBG_ctx`; everything else (`x`,
`block`, `temp`, `i`, `xlen`) is private to a call.  rng.c is the same file in the reference, AVX2 and uSaber-90s directories.

Simplifications.  The accesses of different threads are interleaved one at a time (sequential consistency, accesses of one byte; the C
standard calls the unsynchronised accesses a data race and gives them no meaning at all).  OpenSSL reads the key and then the counter
block, each byte once and in order (rng.c:128 and 131).
-/
namespace Saber.Conc

/-- A thread: what it does next to the shared `DRBG_ctx`.  Bytes 0-31 are `DRBG_ctx.Key`, bytes 32-47 are `DRBG_ctx.V`. -/
inductive Prog (α : Type) where
  /-- finished, with a result -/
  | ret (a : α)
  /-- ended in undefined behaviour -/
  | fail (e : UB)
  /-- read byte `i` -/
  | ld (i : Nat) (k : Byte → Prog α)
  /-- write byte `i` -/
  | st (i : Nat) (v : Byte) (k : Prog α)
  /-- read `reseed_counter` -/
  | ldc (k : Int → Prog α)
  /-- write `reseed_counter` -/
  | stc (v : Int) (k : Prog α)

/-- `p; f` -/
def Prog.bind {α β : Type} : Prog α → (α → Prog β) → Prog β
  | .ret a, f => f a
  | .fail e, _ => .fail e
  | .ld i k, f => .ld i fun v => (k v).bind f
  | .st i v k, f => .st i v (k.bind f)
  | .ldc k, f => .ldc fun v => (k v).bind f
  | .stc v k, f => .stc v (k.bind f)

instance : Monad Prog where
  pure := .ret
  bind := .bind

/-- A private computation. -/
def Prog.lift {α : Type} : CM α → Prog α
  | .ok a => .ret a
  | .error e => .fail e

/-- `for (i = 0; i < n; i++) body` -/
def loopP {σ : Type} : Nat → σ → (Nat → σ → Prog σ) → Prog σ
  | 0, s, _ => .ret s
  | n + 1, s, body => do
    let s' ← loopP n s body
    body n s'

/-- Byte `i` of `DRBG_ctx`. -/
def peek (m : DRBG) (i : Nat) : CM Byte := if i < 32 then rd m.Key i else rd m.V (i - 32)

/-- Store to byte `i` of `DRBG_ctx`. -/
def poke (m : DRBG) (i : Nat) (v : Byte) : CM DRBG :=
  if i < 32 then do
    let K ← wr m.Key i v
    pure { m with Key := K }
  else do
    let V ← wr m.V (i - 32) v
    pure { m with V := V }

/-- The thread runs alone. -/
def Prog.run {α : Type} : Prog α → DRBG → CM (α × DRBG)
  | .ret a, m => .ok (a, m)
  | .fail e, _ => .error e
  | .ld i k, m => do
    let v ← peek m i
    (k v).run m
  | .st i v k, m => do
    let m ← poke m i v
    k.run m
  | .ldc k, m => (k m.reseed_counter).run m
  | .stc v k, m => k.run { m with reseed_counter := v }

/-- Threads and the memory they share. -/
structure Threads (α : Type) where
  mem : DRBG
  thr : List (Prog α)

/-- Thread `t` makes its next access; a thread that has finished does nothing. -/
def Threads.step {α : Type} (t : Nat) (c : Threads α) : CM (Threads α) :=
  match c.thr[t]? with
  | none => .ok c
  | some (.ret _) => .ok c
  | some (.fail e) => .error e
  | some (.ld i k) => do
    let v ← peek c.mem i
    pure { c with thr := c.thr.set t (k v) }
  | some (.st i v k) => do
    let m ← poke c.mem i v
    pure ⟨m, c.thr.set t k⟩
  | some (.ldc k) => pure { c with thr := c.thr.set t (k c.mem.reseed_counter) }
  | some (.stc v k) => pure ⟨{ c.mem with reseed_counter := v }, c.thr.set t k⟩

/-- The threads take turns as the schedule says. -/
def Threads.exec {α : Type} : List Nat → Threads α → CM (Threads α)
  | [], c => .ok c
  | t :: ts, c => do
    let c ← c.step t
    Threads.exec ts c

/-! ### `randombytes` -/

/-- The counter increment (rng.c:163-170 and 197-204): `V[j]` is read by the comparison and again by `V[j]++`. -/
def incCtrP : Nat → Prog Unit
  | 0 => pure ()
  | k + 1 => .ld (32 + k) fun v =>
    if v = 0xff then .st (32 + k) 0 (incCtrP k)
    else .ld (32 + k) fun v' => .st (32 + k) (v' + 1) (.ret ())

/-- `n` bytes of `DRBG_ctx` from byte `i` on, read one after the other. -/
def lds (i : Nat) : Nat → Prog (List Byte)
  | 0 => .ret []
  | n + 1 => .ld i fun v => do
    let vs ← lds (i + 1) n
    pure (v :: vs)

/-- `AES256_ECB(DRBG_ctx.Key, DRBG_ctx.V, buffer + off)` (rng.c:115-136) with a private buffer. -/
def AES256_ECBP (E : Cipher) (buffer : List Byte) (off : Nat) : Prog (List Byte) := do
  let key ← lds 0 32
  let ctr ← lds 32 16
  .lift (AES256_ECB E key ctr buffer off)

/-- `AES256_CTR_DRBG_Update(NULL, DRBG_ctx.Key, DRBG_ctx.V)` (rng.c:188-213). -/
def AES256_CTR_DRBG_UpdateP (E : Cipher) : Prog Unit := do
  let temp ← loopP 3 (uninit 8 70 48) fun i temp => do
    incCtrP 16
    AES256_ECBP E temp (16 * i)
  loopP 32 () fun i _ => do
    let v ← .lift (rd temp i)
    .st i v (.ret ())
  loopP 16 () fun i _ => do
    let v ← .lift (rd temp (32 + i))
    .st (32 + i) v (.ret ())

/-- The `while (xlen > 0)` loop of `randombytes` (rng.c:161-181). -/
def randombytesLoopP (E : Cipher) (x : List Byte) (off : Nat) (i : Int) (xlen : Nat) : Prog (List Byte) :=
  if _ : 0 < xlen then do
    incCtrP 16
    let block ← AES256_ECBP E (uninit 8 72 16) 0
    if h2 : 15 < xlen then
      let x ← .lift (memcpy x (off + i.toNat) block 0 16)
      let i ← .lift (iadd i 16)
      randombytesLoopP E x off i (xlen - 16)
    else
      .lift (memcpy x (off + i.toNat) block 0 xlen)
  else
    .ret x
termination_by xlen

/-- `randombytes` (rng.c:155-186) -/
def randombytesP (E : Cipher) (x : List Byte) (off xlen : Nat) : Prog (List Byte) := do
  let x ← randombytesLoopP E x off 0 xlen
  AES256_CTR_DRBG_UpdateP E
  .ldc fun rc => do
    let rc ← .lift (iadd rc 1)
    .stc rc (.ret x)

/-- A generator that hands out given strings. -/
def stringsRng : RandomBytes (List (List Byte)) := fun x off n st => do
  let x ← memcpy x off (st.headD []) 0 n
  pure (x, st.tail)

/-- `crypto_kem_keypair` (kem.c:12-25) of a thread.  It calls `randombytes` three times; the rest of the function works on private
objects, so that in the model it comes after the last call. -/
def keypairP (P : PSet) (E : Cipher) (pk sk : List Byte) : Prog (Int × List Byte × List Byte) := do
  let r1 ← randombytesP E (uninit 8 40 SEEDBYTES) 0 SEEDBYTES
  let r2 ← randombytesP E (uninit 8 41 NOISE_SEEDBYTES) 0 NOISE_SEEDBYTES
  let z ← randombytesP E (uninit 8 400 KEYBYTES) 0 KEYBYTES
  let (ret, pk, sk, _) ← .lift (crypto_kem_keypair P stringsRng pk sk [r1, r2, z])
  pure (ret, pk, sk)

/-- `crypto_kem_enc` (kem.c:27-49) of a thread; as above. -/
def encP (P : PSet) (E : Cipher) (c k pk : List Byte) : Prog (Int × List Byte × List Byte) := do
  let m ← randombytesP E (uninit 8 61 64) 0 32
  let (ret, c, k, _) ← .lift (crypto_kem_enc P stringsRng c k pk [m])
  pure (ret, c, k)

end Saber.Conc
