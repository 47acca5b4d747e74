import Verif.Model.Rng
/-!
# The random number generators of `Variants/SaberX4_avx2/rng.c`

The file is the reference `rng.c` with five generator states instead of one: `DRBG_ctx`, used by `randombytes`, and
`DRBG_ctx0` … `DRBG_ctx3`, used by `randombytes0` … `randombytes3`.  The five bodies are the body of the reference `randombytes`
with the name of the state replaced; `AES256_CTR_DRBG_Update` (rng.c:345-370) and `AES256_ECB` are those of the reference.
-/
namespace Saber.X4
open Saber

/-- The five global states (Variants/SaberX4_avx2/rng.c:14-18). -/
structure Gens where
  /-- `DRBG_ctx` -/
  ctx : DRBG
  /-- `DRBG_ctx0` -/
  ctx0 : DRBG
  /-- `DRBG_ctx1` -/
  ctx1 : DRBG
  /-- `DRBG_ctx2` -/
  ctx2 : DRBG
  /-- `DRBG_ctx3` -/
  ctx3 : DRBG
  deriving DecidableEq, Repr

/-- The four statements of `randombytes_init` for one state (Variants/SaberX4_avx2/rng.c:153-156, and again in 158-161, 163-166,
168-171 and 173-176). -/
def initCtx (E : Cipher) (seed_material : List Byte) (ctx : DRBG) : CM DRBG := do
  let Key ← memset ctx.Key 0 0 32
  let V ← memset ctx.V 0 0 16
  let (Key, V) ← AES256_CTR_DRBG_Update E (some seed_material) Key V
  pure ⟨Key, V, 1⟩

/-- `randombytes_init` (Variants/SaberX4_avx2/rng.c:142-177). -/
def randombytes_init (E : Cipher) (entropy_input : List Byte) (personalization_string : Option (List Byte)) (g : Gens) :
    CM Gens := do
  let sm ← memcpy (uninit 8 71 48) 0 entropy_input 0 48
  let sm ← xorData sm personalization_string
  let c ← initCtx E sm g.ctx
  let c0 ← initCtx E sm g.ctx0
  let c1 ← initCtx E sm g.ctx1
  let c2 ← initCtx E sm g.ctx2
  let c3 ← initCtx E sm g.ctx3
  pure ⟨c, c0, c1, c2, c3⟩

/-- `randombytes` (Variants/SaberX4_avx2/rng.c:179-210). -/
def randombytes (E : Cipher) (x : List Byte) (off xlen : Nat) (g : Gens) : CM (List Byte × Gens) := do
  let (x, c) ← Saber.randombytes E x off xlen g.ctx
  pure (x, { g with ctx := c })

/-- `randombytes0` (Variants/SaberX4_avx2/rng.c:212-243). -/
def randombytes0 (E : Cipher) (x : List Byte) (off xlen : Nat) (g : Gens) : CM (List Byte × Gens) := do
  let (x, c) ← Saber.randombytes E x off xlen g.ctx0
  pure (x, { g with ctx0 := c })

/-- `randombytes1` (Variants/SaberX4_avx2/rng.c:245-276). -/
def randombytes1 (E : Cipher) (x : List Byte) (off xlen : Nat) (g : Gens) : CM (List Byte × Gens) := do
  let (x, c) ← Saber.randombytes E x off xlen g.ctx1
  pure (x, { g with ctx1 := c })

/-- `randombytes2` (Variants/SaberX4_avx2/rng.c:278-309). -/
def randombytes2 (E : Cipher) (x : List Byte) (off xlen : Nat) (g : Gens) : CM (List Byte × Gens) := do
  let (x, c) ← Saber.randombytes E x off xlen g.ctx2
  pure (x, { g with ctx2 := c })

/-- `randombytes3` (Variants/SaberX4_avx2/rng.c:311-342). -/
def randombytes3 (E : Cipher) (x : List Byte) (off xlen : Nat) (g : Gens) : CM (List Byte × Gens) := do
  let (x, c) ← Saber.randombytes E x off xlen g.ctx3
  pure (x, { g with ctx3 := c })

/-- The five entry points as a table, in the order of the header (Variants/SaberX4_avx2/rng.h:52-66). -/
def generator : Fin 5 → Cipher → List Byte → Nat → Nat → Gens → CM (List Byte × Gens)
  | 0 => randombytes
  | 1 => randombytes0
  | 2 => randombytes1
  | 3 => randombytes2
  | 4 => randombytes3

end Saber.X4
