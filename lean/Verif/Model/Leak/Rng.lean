import Verif.Model.Leak.Ref
import Verif.Model.Rng
/-!
# `Reference_Implementation_KEM/rng.c` with events

The functions of `Model/Rng.lean` over the operations of `Model/Leak/Monad.lean`.  A call of AES-256 (OpenSSL) is one event, which shows where the
block is written.  The erasure theorems in `Proof/Leak/Rng.lean` say that leaving out the events gives the model.
-/
namespace Saber.Leak

/-- `AES256_ECB` (rng.c:115-136); compare `Saber.AES256_ECB`. -/
def AES256_ECB (E : Cipher) (key ctr buffer : List Byte) (off : Nat) : LM (List Byte) :=
  ⟨[.call "AES256_ECB" [off]], Saber.AES256_ECB E key ctr buffer off⟩

/-- The counter increment (rng.c:90-97, 163-170 and 197-204): the test of the loop, the test `V[j] == 0xff`; compare `Saber.incCtr`. -/
def incCtr (V : List Byte) (lo : Nat) : Nat → LM (List Byte)
  | 0 => do
    branch false
    pure V
  | k + 1 => do
    branch true
    let v ← rd V (lo + k)
    branch (decide (v = 0xff))
    if v = 0xff then
      let V ← wr V (lo + k) 0
      incCtr V lo k
    else
      wr V (lo + k) (v + 1)

/-- `if (p) for (i = 0; i < 48; i++) a[i] ^= p[i]` (rng.c:146-148 and 207-209); compare `Saber.xorData`. -/
def xorData (a : List Byte) (p : Option (List Byte)) : LM (List Byte) := do
  branch p.isSome
  match p with
  | none => pure a
  | some p => loop 48 a fun i a => do
    let x ← rd a i
    let y ← rd p i
    wr a i (x ^^^ y)

/-- `AES256_CTR_DRBG_Update` (rng.c:188-213); compare `Saber.AES256_CTR_DRBG_Update`. -/
def AES256_CTR_DRBG_Update (E : Cipher) (provided_data : Option (List Byte)) (Key V : List Byte) : LM (List Byte × List Byte) := do
  let (V, temp) ← loop 3 (V, uninit 8 70 48) fun i (V, temp) => do
    let V ← incCtr V 0 16
    let temp ← AES256_ECB E Key V temp (16 * i)
    pure (V, temp)
  let temp ← xorData temp provided_data
  let Key ← memcpy Key 0 temp 0 32
  let V ← memcpy V 0 temp 32 16
  pure (Key, V)

/-- `randombytes_init` (rng.c:138-153); compare `Saber.randombytes_init`. -/
def randombytes_init (E : Cipher) (entropy_input : List Byte) (personalization_string : Option (List Byte)) (ctx : DRBG) : LM DRBG := do
  let sm ← memcpy (uninit 8 71 48) 0 entropy_input 0 48
  let sm ← xorData sm personalization_string
  let Key ← memset ctx.Key 0 0 32
  let V ← memset ctx.V 0 0 16
  let (Key, V) ← AES256_CTR_DRBG_Update E (some sm) Key V
  pure ⟨Key, V, 1⟩

/-- The `while (xlen > 0)` loop of `randombytes` (rng.c:161-181); compare `Saber.randombytesLoop`. -/
def randombytesLoop (E : Cipher) (Key : List Byte) (V x : List Byte) (off : Nat) (i : Int) (xlen : Nat) : LM (List Byte × List Byte) := do
  branch (decide (0 < xlen))
  if _ : 0 < xlen then do
    let V ← incCtr V 0 16
    let block ← AES256_ECB E Key V (uninit 8 72 16) 0
    branch (decide (15 < xlen))
    if h2 : 15 < xlen then
      let x ← memcpy x (off + i.toNat) block 0 16
      let i ← iadd i 16
      randombytesLoop E Key V x off i (xlen - 16)
    else
      let x ← memcpy x (off + i.toNat) block 0 xlen
      pure (x, V)
  else
    pure (x, V)
termination_by xlen

/-- `randombytes` (rng.c:155-186); compare `Saber.randombytes`. -/
def randombytes (E : Cipher) (x : List Byte) (off xlen : Nat) (ctx : DRBG) : LM (List Byte × DRBG) := do
  let (x, V) ← randombytesLoop E ctx.Key ctx.V x off 0 xlen
  let (Key, V) ← AES256_CTR_DRBG_Update E none ctx.Key V
  let rc ← iadd ctx.reseed_counter 1
  pure (x, ⟨Key, V, rc⟩)

/-- The `while (xlen > 0)` loop of `seedexpander` (rng.c:73-99); compare `Saber.seedexpanderLoop`. -/
def seedexpanderLoop (E : Cipher) (ctx : AESXOF) (x : List Byte) (offset xlen : Nat) : LM (AESXOF × List Byte) := do
  branch (decide (0 < xlen))
  if _ : 0 < xlen then do
    branch (decide (xlen ≤ 16 - ctx.buffer_pos ∨ 16 < ctx.buffer_pos))
    if _ : xlen ≤ 16 - ctx.buffer_pos ∨ 16 < ctx.buffer_pos then do
      let x ← memcpy x offset ctx.buffer ctx.buffer_pos xlen
      pure ({ ctx with buffer_pos := ctx.buffer_pos + xlen }, x)
    else do
      let x ← memcpy x offset ctx.buffer ctx.buffer_pos (16 - ctx.buffer_pos)
      let buffer ← AES256_ECB E ctx.key ctx.ctr ctx.buffer 0
      let ctr ← incCtr ctx.ctr 12 4
      seedexpanderLoop E { ctx with buffer := buffer, buffer_pos := 0, ctr := ctr } x (offset + (16 - ctx.buffer_pos))
        (xlen - (16 - ctx.buffer_pos))
  else
    pure (ctx, x)
termination_by 2 * xlen + (if 16 ≤ ctx.buffer_pos then 1 else 0)
decreasing_by
  all_goals (rw [if_neg (show ¬ (16 ≤ 0) by omega)]; split <;> omega)

/-- `seedexpander` (rng.c:60-102); compare `Saber.seedexpander`. -/
def seedexpander (E : Cipher) (ctx : AESXOF) (x : Option (List Byte)) (xlen : Nat) : LM (Int × AESXOF × Option (List Byte)) := do
  branch x.isNone
  match x with
  | none => pure (-2, ctx, none)
  | some x =>
    branch (decide (xlen ≥ ctx.length_remaining))
    if xlen ≥ ctx.length_remaining then pure (-3, ctx, some x)
    else do
      let ctx := { ctx with length_remaining := ctx.length_remaining - xlen }
      let (ctx, x) ← seedexpanderLoop E ctx x 0 xlen
      pure (0, ctx, some x)

end Saber.Leak
