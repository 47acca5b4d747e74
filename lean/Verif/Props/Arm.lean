import Verif.Proof.Arm.Kara
import Verif.Proof.Arm.Toom
import Verif.Proof.M4.Kem
import Verif.Props.M4
/-!
# C50, C51: the multiplication assembly of the Cortex-M4 implementation

`karaF conc` runs the instructions of `kara.s` on the machine of `Model/Arm/Machine.lean`.  `g` gives arbitrary contents of the registers that
do not hold arguments; `stk` is the stack below the stack pointer, with arbitrary contents.  `toomF conc` does the same for `asm_funcs.S` and
`mult_toom4_256_16.s`.
-/
namespace Saber.Props
open Spec Arm

/-- C50: for all arrays and all contents of registers and stack, `kara_strd_mem_asm` returns to its caller, stores the product of `a` and
`b` in `Z[Y]/(Y^64+1)` modulo `2^16` in `res`, stays within the four arrays and 60 bytes of stack, and preserves the stack pointer and
`r4`-`r11` as required by the procedure call standard. -/
theorem C50_kara (g : Reg → Val conc.W) (hg : ∀ r, g r ≠ .undef) (k : M4.K4) (stk : List (Cell (BitVec 16))) (ha : k.a.length = 64) (hb : k.b.length = 64)
    (hr : k.res.length = 64) (ht : k.tmp.length = 64) (hs : stk.length = 30) :
    ∃ s a' b' r' t' c', karaF conc (karaStart g k stk) = some s ∧ s.mem = [halves a', halves b', halves r', halves t', c'] ∧
      a'.length = 64 ∧ b'.length = 64 ∧ r'.length = 64 ∧ t'.length = 64 ∧
      (∀ i, i < 64 → M4.vals r' i = M4.negMul64 (M4.vals k.a) (M4.vals k.b) i % 65536) ∧
      s.pc = (karaStart g k stk).lr ∧ s.sp = (karaStart g k stk).sp ∧
      s.r4 = g .r4 ∧ s.r5 = g .r5 ∧ s.r6 = g .r6 ∧ s.r7 = g .r7 ∧ s.r8 = g .r8 ∧ s.r9 = g .r9 ∧ s.sl = g .sl ∧ s.fp = g .fp := by
  obtain ⟨s, a', b', r', t', c', h1, h2, h3, h4, h5, h6, h7, h8, h9, h⟩ := kara_run g hg k stk ha hb hr ht hs
  refine ⟨s, a', b', r', t', c', h1, h2, h3, h4, h5, h6, h7, h8, ?_, h⟩
  rw [h9]
  show _ = Val.a (Atom.ptr 4 (2 * stk.length))
  rw [hs]
  rfl

/-- C50: the assembly meets the contract that C39 asks for. -/
theorem C50_kara_contract (g : Reg → Val conc.W) (hg : ∀ r, g r ≠ .undef) (stk : List (Cell (BitVec 16))) (hs : stk.length = 30) : (kara_asm g stk).Correct :=
  kara_asm_correct g hg stk hs

/-- C50: the striding multiplication of the Cortex-M4, C code and assembly together. -/
theorem C50_toom_striding (g : Reg → Val conc.W) (hg : ∀ r, g r ≠ .undef) (stk : List (Cell (BitVec 16))) (hs : stk.length = 30) :
    M4.Toom.Correct (M4.toom_cook_4way_striding .wrap (kara_asm g stk)) :=
  C39_wrap_correct _ (kara_asm_correct g hg stk hs)

/-- C50: the Cortex-M4 KEM with the striding multiplication, C code and assembly together, computes the same as the reference. -/
theorem C50_kem_striding {σ : Type} (P : PSet) (lib : M4.Fips202Lib) (hl : lib.Correct) (g : Reg → Val conc.W)
    (hg : ∀ r, g r ≠ .undef) (stk : List (Cell (BitVec 16))) (hs : stk.length = 30) (rb : RandomBytes σ) (hrb : ∀ st, ∃ r st', Delivers rb 32 st r st') (st : σ)
    (pk sk c k : List Byte) (hpk : pk.length = P.PUBLICKEYBYTES) (hsk : sk.length = P.SECRETKEYBYTES) (hc : c.length = P.BYTES_CCA_DEC)
    (hk : k.length = 32) :
    let toom := M4.toom_cook_4way_striding .wrap (kara_asm g stk)
    M4.crypto_kem_keypair P lib toom false rb pk sk st = crypto_kem_keypair P rb pk sk st ∧
    M4.crypto_kem_enc P lib toom false rb c k pk st = crypto_kem_enc P rb c k pk st ∧
    M4.crypto_kem_dec P lib toom false k c sk = crypto_kem_dec P k c sk :=
  C36_same_as_reference P lib hl _ (C50_toom_striding g hg stk hs) rb hrb st pk sk c k hpk hsk hc hk

/-- C50: with 56 bytes of stack the assembly does not complete, so the bound of 60 bytes is exact. -/
theorem C50_kara_stack : karaF conc (karaStart (fun _ => .a (.opq 0)) ⟨List.replicate 64 0, List.replicate 64 0, List.replicate 64 0,
    List.replicate 64 0⟩ (List.replicate 28 (.half 0))) = none := by
  rfl

/-- C50: a run on concrete arrays: `(1 + 2Y + … + 64Y^63)^2` has the constant coefficient `1 - ∑ (i+1)(65-i)`. -/
example : ∃ r, kara_asm (fun _ => .w (12345 : BitVec 32)) (List.replicate 30 .undef) ⟨(List.range 64).map fun i => BitVec.ofNat 16 (i + 1),
    (List.range 64).map fun i => BitVec.ofNat 16 (i + 1), List.replicate 64 1, List.replicate 64 2⟩ = .ok r ∧
    M4.vals r.res 0 = M4.negMul64 (fun i => i + 1) (fun i => i + 1) 0 % 65536 := by
  obtain ⟨r, h1, -, -, -, -, h2⟩ := kara_asm_correct (fun _ => .w (12345 : BitVec 32)) (by simp) (List.replicate 30 .undef) (by simp)
    ⟨(List.range 64).map fun i => BitVec.ofNat 16 (i + 1), (List.range 64).map fun i => BitVec.ofNat 16 (i + 1), List.replicate 64 1,
      List.replicate 64 2⟩ (by simp) (by simp) (by simp) (by simp)
  refine ⟨r, h1, (h2 0 (by decide)).trans ?_⟩
  decide +kernel

/-- C51: for all arrays and all contents of registers and stack, `toom_cook_4way_mem_asm` returns to its caller, adds the product of `a` and
`b` in `Z[X]/(X^256+1)` to `res` modulo `q = 2^13`, leaves `a` and `b` as they were, stays within the three arrays and 3552 bytes of stack,
and preserves the stack pointer and `r4`-`r11` as required by the procedure call standard. -/
theorem C51_toom (g : Reg → Val conc.W) (hg : ∀ r, g r ≠ .undef) (a b res : List (BitVec 16)) (stk : List (Cell (BitVec 16)))
    (ha : a.length = 256) (hb : b.length = 256) (hr : res.length = 256) (hs : stk.length = 1776) :
    ∃ s res' stk', toomF conc (toomStart g a b res stk) = some s ∧ s.mem = [halves a, halves b, halves res', stk'] ∧
      res'.length = 256 ∧ EqMod 8192 (toP res') (fun k => toP res k + negMul (toP a) (toP b) k) ∧
      s.pc = (toomStart g a b res stk).lr ∧ s.sp = (toomStart g a b res stk).sp ∧
      s.r4 = g .r4 ∧ s.r5 = g .r5 ∧ s.r6 = g .r6 ∧ s.r7 = g .r7 ∧ s.r8 = g .r8 ∧ s.r9 = g .r9 ∧ s.sl = g .sl ∧ s.fp = g .fp := by
  obtain ⟨s, res', stk', h1, h2, h3, h4, h5, h6, h⟩ := toom_run g hg a b res stk ha hb hr hs
  refine ⟨s, res', stk', h1, h2, h3, h4, h5, ?_, h⟩
  rw [h6]
  show _ = Val.a (Atom.ptr 3 (2 * stk.length))
  rw [hs]
  rfl

/-- C51: the assembly meets the contract that C36 asks for. -/
theorem C51_toom_contract (g : Reg → Val conc.W) (hg : ∀ r, g r ≠ .undef) (stk : List (Cell (BitVec 16))) (hs : stk.length = 1776) :
    (toom_asm g stk).Correct :=
  toom_asm_correct g hg stk hs

/-- C51: the Cortex-M4 KEM with the Toom-Cook assembly, C code and assembly together, computes the same as the reference. -/
theorem C51_kem_tc4kara {σ : Type} (P : PSet) (lib : M4.Fips202Lib) (hl : lib.Correct) (g : Reg → Val conc.W)
    (hg : ∀ r, g r ≠ .undef) (stk : List (Cell (BitVec 16))) (hs : stk.length = 1776) (rb : RandomBytes σ) (hrb : ∀ st, ∃ r st', Delivers rb 32 st r st')
    (st : σ) (pk sk c k : List Byte) (hpk : pk.length = P.PUBLICKEYBYTES) (hsk : sk.length = P.SECRETKEYBYTES) (hc : c.length = P.BYTES_CCA_DEC)
    (hk : k.length = 32) :
    M4.crypto_kem_keypair P lib (toom_asm g stk) false rb pk sk st = crypto_kem_keypair P rb pk sk st ∧
    M4.crypto_kem_enc P lib (toom_asm g stk) false rb c k pk st = crypto_kem_enc P rb c k pk st ∧
    M4.crypto_kem_dec P lib (toom_asm g stk) false k c sk = crypto_kem_dec P k c sk :=
  C36_same_as_reference P lib hl _ (toom_asm_correct g hg stk hs) rb hrb st pk sk c k hpk hsk hc hk

/-- C51: the two multiplications of the Cortex-M4 agree modulo `q`: whatever `res` holds, they leave equal values modulo `2^13` in it. -/
theorem C51_multiplications_agree (g g' : Reg → Val conc.W) (hg : ∀ r, g r ≠ .undef) (hg' : ∀ r, g' r ≠ .undef)
    (stk stk' : List (Cell (BitVec 16))) (hs : stk.length = 1776) (hs' : stk'.length = 30)
    (a b res : List (BitVec 16)) (ha : a.length = 256) (hb : b.length = 256) (hr : res.length = 256) :
    ∃ x y r r', toom_asm g stk a b res = .ok (x, r) ∧ M4.toom_cook_4way_striding .wrap (kara_asm g' stk') a b res = .ok (y, r') ∧
      EqMod 8192 (toP r) (toP r') := by
  obtain ⟨x, r, h1, -, -, h2⟩ := toom_asm_correct g hg stk hs a b res ha hb hr
  obtain ⟨y, r', h3, -, -, h4⟩ := C50_toom_striding g' hg' stk' hs' a b res ha hb hr
  exact ⟨x, y, r, r', h1, h3, fun k => (h2 k).trans (h4 k).symm⟩

/-- C51: a run on concrete arrays: `X^255 * (1 + 2X + … + 256X^255)`, added to `1 + X + … + X^255`, has the constant coefficient `1 - 2`. -/
example : ∃ b' r, toom_asm (fun _ => .w (12345 : BitVec 32)) (List.replicate 1776 .undef) (List.replicate 255 0 ++ [1])
    ((List.range 256).map fun i => BitVec.ofNat 16 (i + 1)) (List.replicate 256 1) = .ok (b', r) ∧ toP r 0 % 8192 = -1 % 8192 := by
  obtain ⟨b', r, h1, -, -, h2⟩ := toom_asm_correct (fun _ => .w (12345 : BitVec 32)) (by simp) (List.replicate 1776 .undef)
    List.length_replicate (List.replicate 255 0 ++ [1]) ((List.range 256).map fun i => BitVec.ofNat 16 (i + 1)) (List.replicate 256 1)
    (by rw [List.length_append, List.length_replicate]; rfl) (by rw [List.length_map, List.length_range]) List.length_replicate
  refine ⟨b', r, h1, (h2 0).trans ?_⟩
  decide +kernel

end Saber.Props
