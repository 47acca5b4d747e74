import Verif.Model.X4.Fips202
import Verif.Model.Avx.Indcpa
/-!
# The vector instructions of SaberX4's packing functions

A `__m256i` used with the `epi32` instructions is eight 32-bit elements, a `__m128`, or `__m128i`, is four of them.  The conversions
between `__m128`, `__m128i` and `float *` do not change any bit.  The alignment that `_mm_load_ps` and `_mm_store_si128` require is not
modelled.
-/
namespace Saber.X4

/-- `__m256i` as eight 32-bit elements -/
abbrev V8 := Fin 8 → BitVec 32
/-- `__m128` or `__m128i` as four 32-bit elements -/
abbrev V4 := Fin 4 → BitVec 32

/-- `_mm256_and_si256` -/
def and8 (a b : V8) : V8 := fun i => a i &&& b i
/-- `_mm256_or_si256` -/
def or8 (a b : V8) : V8 := fun i => a i ||| b i
/-- `_mm256_srli_epi32` -/
def srli8 (a : V8) (n : Nat) : V8 := fun i => a i >>> n
/-- `_mm256_slli_epi32` -/
def slli8 (a : V8) (n : Nat) : V8 := fun i => a i <<< n
/-- `_mm256_set1_epi32`; the masks `avx_epi32_01 .. avx_epi32_ff` have their values from `init_aux_avx` (SABER_indcpa.c:34-52), which `load_values`
calls at the start of each of the three functions of the encryption scheme. -/
def set1 (x : BitVec 32) : V8 := fun _ => x

/-- The elements of `a` followed by those of `b`. -/
def cat {α : Type} {n : Nat} (a b : Fin n → α) : Fin (n + n) → α :=
  fun i => if h : i.val < n then a ⟨i.val, h⟩ else b ⟨i.val - n, by omega⟩

/-- `_mm256_insertf128_si256(_mm256_castsi128_si256(a), b, 1)` -/
def insertf128 (a b : V4) : V8 := cat a b

/-- `_mm256_extractf128_ps(a, h)` -/
def extractf128 (a : V8) (h : Fin 2) : V4 := fun c => a ⟨4 * h.val + c.val, by omega⟩

/-- `_MM_TRANSPOSE4_PS(l0, l1, l2, l3)`; returns the new values of the four variables. -/
def TRANSPOSE4 (l : Fam V4) : Fam V4 := fun r c => l c r

/-- Saturation of a signed 32-bit value to an unsigned 16-bit value -/
def satU16 (x : BitVec 32) : BitVec 16 :=
  if x.toInt < 0 then 0 else if 65535 < x.toInt then 65535 else BitVec.ofInt 16 x.toInt
/-- Saturation of a signed 16-bit value to an unsigned 8-bit value -/
def satU8 (x : BitVec 16) : BitVec 8 :=
  if x.toInt < 0 then 0 else if 255 < x.toInt then 255 else BitVec.ofInt 8 x.toInt
/-- Saturation of a signed 32-bit value to a signed 16-bit value -/
def satS16 (x : BitVec 32) : BitVec 16 :=
  if x.toInt < -32768 then BitVec.ofInt 16 (-32768) else if 32767 < x.toInt then BitVec.ofInt 16 32767 else BitVec.ofInt 16 x.toInt

/-- `_mm_packus_epi32` -/
def packus_epi32 (a b : V4) : Fin 8 → BitVec 16 := fun i => satU16 (cat a b i)
/-- `_mm_packs_epi32` -/
def packs_epi32 (a b : V4) : Fin 8 → BitVec 16 := fun i => satS16 (cat a b i)
/-- `_mm_packus_epi16` -/
def packus_epi16 (a b : Fin 8 → BitVec 16) : Fin 16 → BitVec 8 := fun i => satU8 (cat a b i)

/-- `n` reads, in order; `d` stands at the other indices. -/
def gather {α : Type} (n : Nat) (f : Nat → CM α) (d : α) : CM (Nat → α) :=
  loop n (fun _ => d) fun i g => do
    let x ← f i
    .ok fun k => if k = i then x else g k

/-- Four reads `x_l = f l` -/
def famM {α : Type} (f : Fin 4 → CM α) : CM (Fam α) := do
  let x0 ← f 0
  let x1 ← f 1
  let x2 ← f 2
  let x3 ← f 3
  .ok fun l => if l = 0 then x0 else if l = 1 then x1 else if l = 2 then x2 else x3

/-- A group of four statements, number `l` of which changes the variable `x_l` only. -/
def fourA {τ : Type} (x : Fam τ) (g : Fin 4 → τ → CM τ) : CM (Fam τ) :=
  four x fun l x => do
    let a ← g l (x l)
    .ok (setFam x l a)

/-- `_mm_load_ps` from `&bytes[off]`: 16 bytes, as little-endian 32-bit elements -/
def load_ps (bytes : List Byte) (off : Nat) : CM V4 := do
  let b ← gather 16 (fun i => rd bytes (off + i)) 0
  .ok fun c => b (4 * c + 3) ++ b (4 * c + 2) ++ b (4 * c + 1) ++ b (4 * c)

/-- Element `n` of a `uint16_t data[SABER_K][SABER_N]` whose rows follow each other in memory. -/
def flatRd (data : List (List (BitVec 16))) (n : Nat) : CM (BitVec 16) := do
  let row ← rd data (n / N)
  rd row (n % N)

/-- `_mm_load_ps` from element `off` of a `uint16_t data[SABER_K][SABER_N]`: 8 elements -/
def load_ps16 (data : List (List (BitVec 16))) (off : Nat) : CM V4 := do
  let b ← gather 8 (fun i => flatRd data (off + i)) 0
  .ok fun c => b (2 * c + 1) ++ b (2 * c)

/-- `_mm_store_si128` to `&bytes[off]` -/
def store_si128 (bytes : List Byte) (off : Nat) (v : Fin 16 → BitVec 8) : CM (List Byte) :=
  wrs bytes off ((List.finRange 16).map v)

/-- An uninitialised `__m256i x[n]` -/
def uninitV8 (tag n : Nat) : List V8 := (List.range n).map fun i c => junk 32 tag (8 * i + c.val)

end Saber.X4
