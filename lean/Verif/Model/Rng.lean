import Verif.CSem
/-!
# `Reference_Implementation_KEM/rng.c`

The AES-256 block cipher comes from OpenSSL and is a parameter `E key block`.  The failure paths of OpenSSL (`handleErrors`,
which aborts) are not modelled.  `unsigned long` is 64 bits wide (trusted); no computed length wraps.
-/
namespace Saber

/-- A block cipher: key, plaintext block, ciphertext block. -/
abbrev Cipher := List Byte → List Byte → List Byte

/-- `AES256_ECB` (rng.c:115-136): one block is encrypted and written to `buffer + off`. -/
def AES256_ECB (E : Cipher) (key ctr buffer : List Byte) (off : Nat) : CM (List Byte) := wrs buffer off (E key ctr)

/-- The counter increment `for (j = n-1; j >= lo; j--)` with its `break` (rng.c:90-97 with `lo = 12`, rng.c:163-170 and 197-204
with `lo = 0`; `n = 16`).  The second argument counts the bytes that are left. -/
def incCtr (V : List Byte) (lo : Nat) : Nat → CM (List Byte)
  | 0 => pure V
  | k + 1 => do
    let v ← rd V (lo + k)
    if v = 0xff then
      let V ← wr V (lo + k) 0
      incCtr V lo k
    else
      wr V (lo + k) (v + 1)

/-- `if (p) for (i = 0; i < 48; i++) a[i] ^= p[i]` (rng.c:146-148 and 207-209). -/
def xorData (a : List Byte) (p : Option (List Byte)) : CM (List Byte) :=
  match p with
  | none => pure a
  | some p => loop 48 a fun i a => do
    let x ← rd a i
    let y ← rd p i
    wr a i (x ^^^ y)

/-- `AES256_CTR_DRBG_Update` (rng.c:188-213).  `provided_data` may be `NULL`.  Returns `Key` and `V`. -/
def AES256_CTR_DRBG_Update (E : Cipher) (provided_data : Option (List Byte)) (Key V : List Byte) :
    CM (List Byte × List Byte) := do
  let (V, temp) ← loop 3 (V, uninit 8 70 48) fun i (V, temp) => do
    let V ← incCtr V 0 16
    let temp ← AES256_ECB E Key V temp (16 * i)
    pure (V, temp)
  let temp ← xorData temp provided_data
  let Key ← memcpy Key 0 temp 0 32
  let V ← memcpy V 0 temp 32 16
  pure (Key, V)

/-- `AES256_CTR_DRBG_struct` (rng.h) -/
structure DRBG where
  /-- `Key[32]` -/
  Key : List Byte
  /-- `V[16]` -/
  V : List Byte
  /-- `int reseed_counter` -/
  reseed_counter : Int
  deriving DecidableEq, Repr

/-- `randombytes_init` (rng.c:138-153); `security_strength` is not used by the code. -/
def randombytes_init (E : Cipher) (entropy_input : List Byte) (personalization_string : Option (List Byte)) (ctx : DRBG) :
    CM DRBG := do
  let sm ← memcpy (uninit 8 71 48) 0 entropy_input 0 48
  let sm ← xorData sm personalization_string
  let Key ← memset ctx.Key 0 0 32
  let V ← memset ctx.V 0 0 16
  let (Key, V) ← AES256_CTR_DRBG_Update E (some sm) Key V
  pure ⟨Key, V, 1⟩

/-- The `while (xlen > 0)` loop of `randombytes` (rng.c:161-181); `i` is an `int`.  Returns `x` and `V`. -/
def randombytesLoop (E : Cipher) (Key : List Byte) (V x : List Byte) (off : Nat) (i : Int) (xlen : Nat) :
    CM (List Byte × List Byte) :=
  if _ : 0 < xlen then do
    let V ← incCtr V 0 16
    let block ← AES256_ECB E Key V (uninit 8 72 16) 0
    if h2 : 15 < xlen then
      let x ← memcpy x (off + i.toNat) block 0 16
      let i ← iadd i 16
      randombytesLoop E Key V x off i (xlen - 16)
    else
      let x ← memcpy x (off + i.toNat) block 0 xlen
      pure (x, V)
  else
    pure (x, V)
termination_by xlen

/-- `randombytes` (rng.c:155-186); `x` points to `x[off]`.  Returns `x` and the state. -/
def randombytes (E : Cipher) (x : List Byte) (off xlen : Nat) (ctx : DRBG) : CM (List Byte × DRBG) := do
  let (x, V) ← randombytesLoop E ctx.Key ctx.V x off 0 xlen
  let (Key, V) ← AES256_CTR_DRBG_Update E none ctx.Key V
  let rc ← iadd ctx.reseed_counter 1
  pure (x, ⟨Key, V, rc⟩)

/-- `AES_XOF_struct` (rng.h) -/
structure AESXOF where
  /-- `buffer[16]` -/
  buffer : List Byte
  /-- `int buffer_pos`; always between 0 and 16 -/
  buffer_pos : Nat
  /-- `unsigned long length_remaining` -/
  length_remaining : Nat
  /-- `key[32]` -/
  key : List Byte
  /-- `ctr[16]` -/
  ctr : List Byte
  deriving DecidableEq, Repr

/-- `seedexpander_init` (rng.c:25-52).  Returns the return code and the context. -/
def seedexpander_init (ctx : AESXOF) (seed diversifier : List Byte) (maxlen : Nat) : CM (Int × AESXOF) := do
  if maxlen ≥ 0x100000000 then
    pure (-1, ctx)
  else
    let key ← memcpy ctx.key 0 seed 0 32
    let ctr ← memcpy ctx.ctr 0 diversifier 0 8
    let ctr ← wr ctr 11 (n8 (maxlen % 256))
    let m := maxlen >>> 8
    let ctr ← wr ctr 10 (n8 (m % 256))
    let m := m >>> 8
    let ctr ← wr ctr 9 (n8 (m % 256))
    let m := m >>> 8
    let ctr ← wr ctr 8 (n8 (m % 256))
    let ctr ← memset ctr 12 0 4
    let buffer ← memset ctx.buffer 0 0 16
    pure (0, { buffer := buffer, buffer_pos := 16, length_remaining := maxlen, key := key, ctr := ctr })

/-- The `while (xlen > 0)` loop of `seedexpander` (rng.c:73-99).  `16 - ctx->buffer_pos` is an `int`; in the comparison with `xlen`
it is converted to `unsigned long`, so a position above 16 would make the comparison true. -/
def seedexpanderLoop (E : Cipher) (ctx : AESXOF) (x : List Byte) (offset xlen : Nat) : CM (AESXOF × List Byte) :=
  if _ : 0 < xlen then
    if _ : xlen ≤ 16 - ctx.buffer_pos ∨ 16 < ctx.buffer_pos then do
      let x ← memcpy x offset ctx.buffer ctx.buffer_pos xlen
      pure ({ ctx with buffer_pos := ctx.buffer_pos + xlen }, x)
    else do
      let x ← memcpy x offset ctx.buffer ctx.buffer_pos (16 - ctx.buffer_pos)
      let buffer ← AES256_ECB E ctx.key ctx.ctr ctx.buffer 0
      let ctr ← incCtr ctx.ctr 12 4
      seedexpanderLoop E { ctx with buffer := buffer, buffer_pos := 0, ctr := ctr } x (offset + (16 - ctx.buffer_pos))
        (xlen - (16 - ctx.buffer_pos))
  else
    pure (ctx, x)
termination_by 2 * xlen + (if 16 ≤ ctx.buffer_pos then 1 else 0)
decreasing_by
  all_goals (rw [if_neg (show ¬ (16 ≤ 0) by omega)]; split <;> omega)

/-- `seedexpander` (rng.c:60-102).  `x = none` is a `NULL` pointer.  Returns the return code, the context and `x`. -/
def seedexpander (E : Cipher) (ctx : AESXOF) (x : Option (List Byte)) (xlen : Nat) : CM (Int × AESXOF × Option (List Byte)) :=
  match x with
  | none => pure (-2, ctx, none)
  | some x =>
    if xlen ≥ ctx.length_remaining then pure (-3, ctx, some x)
    else do
      let ctx := { ctx with length_remaining := ctx.length_remaining - xlen }
      let (ctx, x) ← seedexpanderLoop E ctx x 0 xlen
      pure (0, ctx, some x)

end Saber
