import Verif.Model.X4.Keccak
/-!
# `Variants/SaberX4_avx2/fips202x4.c`

The functions work on four byte strings at once.  Four parameters or variables `x0, x1, x2, x3` of the C code are a family `x : Fin 4 → _`, and
four statements that differ only in that index are one call of `four`, which runs them in the order of the index (the script
`tools/x4check.py` checks that the statements of every such group are the same text up to the index).  The objects behind the four
pointers are distinct, as in all calls of these functions.  `load64` and `store64` (fips202x4.c:10-28) are the functions of `fips202.c`, with the
same text.
-/
namespace Saber.X4

/-- Four variables `x0, x1, x2, x3`. -/
abbrev Fam (α : Type) := Fin 4 → α

/-- `x_l = v` -/
def setFam {α : Type} (x : Fam α) (l : Fin 4) (v : α) : Fam α := fun k => if k = l then v else x k

/-- A group of four statements with the indices 0, 1, 2, 3, in this order. -/
def four {σ : Type} (s : σ) (f : Fin 4 → σ → CM σ) : CM σ := do
  let s ← f 0 s
  let s ← f 1 s
  let s ← f 2 s
  f 3 s

/-- `ss[j]` for `unsigned long long *ss = (unsigned long long *)s` (fips202x4.c:49, 113): lane `j % 4` of `s[j / 4]`. -/
def ssRd (s : List V256) (j : Nat) : CM (BitVec 64) := do
  let v ← rd s (j / 4)
  pure (v (Fin.ofNat 4 j))

/-- `ss[j] = x` -/
def ssWr (s : List V256) (j : Nat) (x : BitVec 64) : CM (List V256) := do
  let v ← rd s (j / 4)
  wr s (j / 4) (setFam v (Fin.ofNat 4 j) x)

/-- The loop that adds a block to the state (fips202x4.c:53-59 and 94-100) -/
def xorBlock4x (s : List V256) (r : Nat) (m : Fam (List Byte)) (mOff : Fam Nat) : CM (List V256) :=
  loop (r / 8) s fun i s => four s fun l s => do
    let v ← load64 (m l) (mOff l + 8 * i)
    let x ← ssRd s (4 * i + l)
    ssWr s (4 * i + l) (x ^^^ v)

/-- The `while (mlen >= r)` loop of `keccak_absorb4x` (fips202x4.c:51-67); returns `s`, the offsets of `m0..m3` and `mlen`.
For `r = 0` the C loop does not terminate; the callers pass 168, 136 and 72. -/
def absorbLoop4x (s : List V256) (r : Nat) (m : Fam (List Byte)) (mOff : Fam Nat) (mlen : Nat) : CM (List V256 × Fam Nat × Nat) :=
  if _h : r ≤ mlen ∧ 0 < r then do
    let s ← xorBlock4x s r m mOff
    let s ← KeccakP1600times4_PermuteAll_24rounds s
    absorbLoop4x s r m (fun l => mOff l + r) (mlen - r)
  else
    pure (s, mOff, mlen)
termination_by mlen

/-- `keccak_absorb4x` (fips202x4.c:34-101).  After the loop at 76-82 the variable `i` is `mlen`. -/
def keccak_absorb4x (s : List V256) (r : Nat) (m : Fam (List Byte)) (mOff : Fam Nat) (mlen : Nat) (p : Byte) : CM (List V256) := do
  let (s, mOff, mlen) ← absorbLoop4x s r m mOff mlen
  let t : Fam (List Byte) := fun l => uninit 8 (300 + l) 200
  let t ← loop r t fun i t => four t fun l t => do
    let a ← wr (t l) i 0
    pure (setFam t l a)
  let t ← loop mlen t fun i t => four t fun l t => do
    let v ← rd (m l) (mOff l + i)
    let a ← wr (t l) i v
    pure (setFam t l a)
  let t ← four t fun l t => do
    let a ← wr (t l) mlen p
    pure (setFam t l a)
  let t ← four t fun l t => do
    let v ← rd (t l) (r - 1)
    let a ← wr (t l) (r - 1) (v ||| 128)
    pure (setFam t l a)
  xorBlock4x s r t (fun _ => 0)

/-- `keccak_squeezeblocks4x` (fips202x4.c:103-131); `h_l` points to `h_l[hOff l]`; returns the new contents of `h0..h3` and `s`. -/
def keccak_squeezeblocks4x (h : Fam (List Byte)) (hOff : Fam Nat) (nblocks : Nat) (s : List V256) (r : Nat) :
    CM (Fam (List Byte) × List V256) := do
  let (h, _, s) ← loop nblocks (h, hOff, s) fun _ (h, hOff, s) => do
    let s ← KeccakP1600times4_PermuteAll_24rounds s
    let h ← loop (r >>> 3) h fun i h => four h fun l h => do
      let v ← ssRd s (4 * i + l)
      let a ← store64 (h l) (hOff l + 8 * i) v
      pure (setFam h l a)
    pure (h, fun l => hOff l + r, s)
  pure (h, s)

/-- `__m256i s[25]` and `s[i] = _mm256_xor_si256(s[i], s[i])` (fips202x4.c:154, 162-163 and the same in the other functions).  The operands are
indeterminate values; the two reads of one variable give the same value (trusted). -/
def clearState4x : CM (List V256) :=
  loop 25 ((List.range 25).map fun i l => junk 64 310 (4 * i + l)) fun i s => do
    let x ← rd s i
    wr s i (XOR256 x x)

/-- `SHAKE256_RATE` (fips202.h:7) -/
abbrev SHAKE256_RATE : Nat := 136

/-- The loop that copies the first `n` bytes of `t0..t3` to the outputs (fips202x4.c:179-185, 224-230, 263-269 and 302-308). -/
def copyOut (n : Nat) (out : Fam (List Byte)) (outOff : Fam Nat) (t : Fam (List Byte)) : CM (Fam (List Byte)) :=
  loop n out fun i out => four out fun l out => do
    let v ← rd (t l) i
    let a ← wr (out l) (outOff l + i) v
    pure (setFam out l a)

/-- `shake128x4` (fips202x4.c:145-187) with arrays `t0..t3` of `tSize` bytes.  The code declares them with `SHAKE256_RATE` bytes (155-158). -/
def shake128x4With (tSize : Nat) (out : Fam (List Byte)) (outOff : Fam Nat) (outlen : Nat) (input : Fam (List Byte)) (inOff : Fam Nat) (inlen : Nat) :
    CM (Fam (List Byte)) := do
  let s ← clearState4x
  let s ← keccak_absorb4x s SHAKE128_RATE input inOff inlen 0x1F
  let (out, s) ← keccak_squeezeblocks4x out outOff (outlen / SHAKE128_RATE) s SHAKE128_RATE
  let outOff : Fam Nat := fun l => outOff l + (outlen / SHAKE128_RATE) * SHAKE128_RATE
  if outlen % SHAKE128_RATE ≠ 0 then
    let (t, _) ← keccak_squeezeblocks4x (fun l => uninit 8 (320 + l) tSize) (fun _ => 0) 1 s SHAKE128_RATE
    copyOut (outlen % SHAKE128_RATE) out outOff t
  else
    pure out

/-- `shake128x4` (fips202x4.c:145-187), as it is in the code. -/
def shake128x4 := shake128x4With SHAKE256_RATE

/-- `shake256x4` (fips202x4.c:190-232) -/
def shake256x4 (out : Fam (List Byte)) (outOff : Fam Nat) (outlen : Nat) (input : Fam (List Byte)) (inOff : Fam Nat) (inlen : Nat) :
    CM (Fam (List Byte)) := do
  let s ← clearState4x
  let s ← keccak_absorb4x s SHAKE256_RATE input inOff inlen 0x1F
  let (out, s) ← keccak_squeezeblocks4x out outOff (outlen / SHAKE256_RATE) s SHAKE256_RATE
  let outOff : Fam Nat := fun l => outOff l + (outlen / SHAKE256_RATE) * SHAKE256_RATE
  if outlen % SHAKE256_RATE ≠ 0 then
    let (t, _) ← keccak_squeezeblocks4x (fun l => uninit 8 (330 + l) SHAKE256_RATE) (fun _ => 0) 1 s SHAKE256_RATE
    copyOut (outlen % SHAKE256_RATE) out outOff t
  else
    pure out

/-- `sha3_256x4` (fips202x4.c:234-270).  All reads of the inputs happen before the first write to an output, so a call in which both pointers
point into the same object is modelled by passing that object twice. -/
def sha3_256x4 (out : Fam (List Byte)) (outOff : Fam Nat) (input : Fam (List Byte)) (inOff : Fam Nat) (inlen : Nat) : CM (Fam (List Byte)) := do
  let s ← clearState4x
  let s ← keccak_absorb4x s SHA3_256_RATE input inOff inlen 0x06
  let (t, _) ← keccak_squeezeblocks4x (fun l => uninit 8 (340 + l) SHA3_256_RATE) (fun _ => 0) 1 s SHA3_256_RATE
  copyOut 32 out outOff t

/-- `sha3_512x4` (fips202x4.c:273-309); same conventions. -/
def sha3_512x4 (out : Fam (List Byte)) (outOff : Fam Nat) (input : Fam (List Byte)) (inOff : Fam Nat) (inlen : Nat) : CM (Fam (List Byte)) := do
  let s ← clearState4x
  let s ← keccak_absorb4x s SHA3_512_RATE input inOff inlen 0x06
  let (t, _) ← keccak_squeezeblocks4x (fun l => uninit 8 (350 + l) SHA3_512_RATE) (fun _ => 0) 1 s SHA3_512_RATE
  copyOut 64 out outOff t

end Saber.X4
