import Verif.Proof.Arm.KeccakM0
import Verif.Props.M0Kem
/-!
# C52, C53: the Keccak assembly of the Cortex-M0 and the build that uses it

`permF conc` runs the instructions of `asm_KeccakF-1600.S` on the machine of `Model/Arm/Machine.lean`.  `g` gives arbitrary contents of the
registers that do not hold arguments; `stk` is the stack below the stack pointer, with arbitrary contents.
-/
namespace Saber.Props
open Spec Arm Arm.Keccak

/-- The state array that 50 words represent in the bit-interleaved representation: word `2l` holds the even bits and word `2l + 1` the odd bits
of lane `l = 5y + x`. -/
def interleavedState (w : List (BitVec 32)) : Spec.Keccak.State := fun x y z =>
  if z.val % 2 = 0 then (w.getD (2 * (5 * y.val + x.val)) 0).getLsbD (z.val / 2)
  else (w.getD (2 * (5 * y.val + x.val) + 1) 0).getLsbD (z.val / 2)

theorem interleavedState_eq (w : List (BitVec 32)) : interleavedState w = interleaved w := by
  funext x y z
  unfold interleavedState interleaved
  split
  · next h => rw [h, Nat.add_zero]
  · next h => rw [show z.val % 2 = 1 by omega]

/-- C52: for all states and all contents of registers and stack, `KeccakF1600_StatePermute` returns to its caller, applies the 24 rounds of
Keccak-f[1600] to the bit-interleaved state, leaves its table of constants unchanged, stays within the state, the table and 64 bytes of stack,
and preserves the stack pointer, `r4`-`r11` and `r12`. -/
theorem C52_keccak_asm (g : Reg → Val conc.W) (hg : ∀ r, g r ≠ .undef) (w : List (BitVec 32)) (hw : w.length = 50)
    (stk : List (Cell (BitVec 16))) (hs : stk.length = 32) :
    ∃ s w' stk', permF conc (permStart g w stk) = some s ∧ s.mem = [words w', words roundConstants, stk'] ∧ w'.length = 50 ∧
      interleavedState w' = Spec.Keccak.rounds 24 (interleavedState w) ∧
      s.pc = (permStart g w stk).lr ∧ s.sp = (permStart g w stk).sp ∧
      s.r4 = g .r4 ∧ s.r5 = g .r5 ∧ s.r6 = g .r6 ∧ s.r7 = g .r7 ∧ s.r8 = g .r8 ∧ s.r9 = g .r9 ∧ s.sl = g .sl ∧ s.fp = g .fp ∧ s.ip = g .ip := by
  obtain ⟨s, w', stk', h1, h2, h3, h4, h5, h6, ⟨a1, a2, a3, a4, a5, a6, a7, a8⟩, h8⟩ := perm_run g hg w stk hw hs
  refine ⟨s, w', stk', h1, h2, h3, by rw [interleavedState_eq, interleavedState_eq, h4], h5, ?_, a1, a2, a3, a4, a5, a6, a7, a8, h8⟩
  rw [h6]
  show _ = Val.a (Atom.ptr 2 (2 * stk.length))
  rw [hs]
  rfl

/-- C52: a state of 50 words that is not zero, and registers and stack that meet the hypotheses. -/
example : (∀ r, (fun _ => .w (77 : BitVec 32) : Reg → Val conc.W) r ≠ .undef) ∧ ((List.range 50).map (BitVec.ofNat 32)).length = 50 ∧
    interleavedState ((List.range 50).map (BitVec.ofNat 32)) 1 0 2 = true ∧ (List.replicate 32 (.undef : Cell (BitVec 16))).length = 32 := by
  refine ⟨fun r => ?_, by decide, by decide, by decide⟩
  simp

/-- C53: linked with the assembly, the hash functions of the port compute, for every input, the sponge construction over the function
`m0Permutation`, whatever the registers and the stack contain when the assembly is called. -/
theorem C53_hash (g : Reg → Val conc.W) (hg : ∀ r, g r ≠ .undef) (stk : List (Cell (BitVec 16))) (hk : stk.length = 32)
    (output : List Byte) (outOff outlen : Nat) (input : List Byte) (inOff inlen : Nat) (hi : inOff + inlen ≤ input.length) :
    (outOff + outlen ≤ output.length → @M0.shake128 (M0.linked g stk) output outOff outlen input inOff inlen =
      .ok (writeAt output outOff (@Spec.Keccak.shake128 m0Permutation ((input.drop inOff).take inlen) outlen))) ∧
    (outOff + 32 ≤ output.length → @M0.sha3_256 (M0.linked g stk) output outOff input inOff inlen =
      .ok (writeAt output outOff (@Spec.Keccak.sha3_256 m0Permutation ((input.drop inOff).take inlen)))) ∧
    (outOff + 64 ≤ output.length → @M0.sha3_512 (M0.linked g stk) output outOff input inOff inlen =
      .ok (writeAt output outOff (@Spec.Keccak.sha3_512 m0Permutation ((input.drop inOff).take inlen)))) := by
  let _ := m0Permutation
  let _ := M0.linked g stk
  have := linked_ok g hg stk hk
  exact ⟨fun h => M0.shake128_m0 _ _ _ _ _ _ h hi, fun h => M0.sha3_256_m0 _ _ _ _ _ h hi, fun h => M0.sha3_512_m0 _ _ _ _ _ h hi⟩

/-- The first bytes of SHAKE128 of 32 zero bytes. -/
theorem shake128_zeros : Spec.Keccak.shake128 (List.replicate 32 0) 8 = [0x24, 0xa7, 0xca, 0x4b, 0x75, 0xe3, 0x89, 0x8d] := by
  have e := shake128_ok (List.replicate 8 0) 0 8 (List.replicate 32 0) 0 32 (by rw [List.length_replicate]) (by rw [List.length_replicate])
  rw [writeAt_full _ _ (by rw [length_shake128, List.length_replicate]), List.drop_zero, List.take_of_length_le (by rw [List.length_replicate])] at e
  have e2 : (shake128 (List.replicate 8 0) 0 8 (List.replicate 32 0) 0 32).toOption =
      some [0x24, 0xa7, 0xca, 0x4b, 0x75, 0xe3, 0x89, 0x8d] := by decide +kernel
  rw [e] at e2
  exact Option.some.inj e2

/-- The first bytes of the function that the Cortex-M0 build computes in the place of SHAKE128. -/
theorem shake128_zeros_m0 :
    @Spec.Keccak.shake128 m0Permutation (List.replicate 32 0) 8 = [0x18, 0xcf, 0x21, 0x8c, 0xc3, 0xe8, 0x05, 0x91] := by
  have e := @M0.shake128_m0 m0Permutation ⟨viaReference⟩ viaReference_ok (List.replicate 8 0) 0 8 (List.replicate 32 0) 0 32
    (by rw [List.length_replicate]) (by rw [List.length_replicate])
  rw [writeAt_full _ _ (by rw [@length_shake128 m0Permutation, List.length_replicate]), List.drop_zero, List.take_of_length_le (by rw [List.length_replicate])] at e
  have e2 : (@M0.shake128 ⟨viaReference⟩ (List.replicate 8 0) 0 8 (List.replicate 32 0) 0 32).toOption =
      some [0x18, 0xcf, 0x21, 0x8c, 0xc3, 0xe8, 0x05, 0x91] := by decide +kernel
  rw [e] at e2
  exact Option.some.inj e2

/-- C53: the hash function of the build is not SHAKE128 of FIPS 202: the outputs for 32 zero bytes differ.  The same call in the reference
implementation returns the value of FIPS 202 (C25). -/
theorem C53_not_fips202 (g : Reg → Val conc.W) (hg : ∀ r, g r ≠ .undef) (stk : List (Cell (BitVec 16))) (hk : stk.length = 32) :
    ∃ input out out', @M0.shake128 (M0.linked g stk) (List.replicate 8 0) 0 8 input 0 32 = .ok out ∧
      shake128 (List.replicate 8 0) 0 8 input 0 32 = .ok out' ∧ out' = Spec.Keccak.shake128 input 8 ∧ out ≠ out' := by
  refine ⟨List.replicate 32 0, _, _, (C53_hash g hg stk hk (List.replicate 8 0) 0 8 (List.replicate 32 0) 0 32 (by rw [List.length_replicate])).1
    (by rw [List.length_replicate]), shake128_ok _ _ _ _ _ _ (by rw [List.length_replicate]) (by rw [List.length_replicate]), ?_, ?_⟩
  · rw [writeAt_full _ _ (by rw [length_shake128, List.length_replicate]), List.drop_zero, List.take_of_length_le (by rw [List.length_replicate])]
  · rw [writeAt_full _ _ (by rw [@length_shake128 m0Permutation, List.length_replicate]), writeAt_full _ _ (by rw [length_shake128, List.length_replicate]),
      List.drop_zero, List.take_of_length_le (by rw [List.length_replicate]), shake128_zeros, shake128_zeros_m0]
    decide

/-- C53: key generation and encapsulation of the build compute `Spec/M0.lean` with this hash function. -/
theorem C53_kem (g : Reg → Val conc.W) (hg : ∀ r, g r ≠ .undef) (stk : List (Cell (BitVec 16))) (hk : stk.length = 32) {σ : Type}
    (rb : RandomBytes σ) (st st1 st2 st3 : σ) (r1 r2 z : List Byte) (h1 : Delivers rb 32 st r1 st1) (h2 : Delivers rb 32 st1 r2 st2)
    (h3 : Delivers rb 32 st2 z st3) (gs : M0.GS) (hgs : gs.buf.length = 280 ∧ gs.s.length = 25) (pk sk c k : List Byte) (hpk : pk.length = 992)
    (hsk : sk.length = 2304) (hc : c.length = 1088) (hkl : k.length = 32) :
    @M0.crypto_kem_keypair (M0.linked g stk) σ M0.macWrap rb gs pk sk st =
      .ok (0, @kemPk m0Permutation saber r1 r2, @kemSk m0Permutation saber r1 r2 z, st3) ∧
    @M0.crypto_kem_enc (M0.linked g stk) σ M0.macWrap rb gs c k pk st =
      .ok (0, @m0EncapsC m0Permutation r1 pk, @m0EncapsK m0Permutation r1 pk, st1) := by
  let _ := m0Permutation
  let _ := M0.linked g stk
  have := linked_ok g hg stk hk
  exact ⟨C46_keypair rb st st1 st2 st3 r1 r2 z h1 h2 h3 gs hgs pk sk hpk hsk, C47_enc rb st st1 r1 h1 gs hgs c k pk hc hkl hpk⟩

/-- C53: an exchange within the build (with a message buffer of 512 bytes, cf. C40) recovers message bit `i` if and only if the noise is in range at
coefficient `i`, as in C47. -/
theorem C53_decrypt (g : Reg → Val conc.W) (hgr : ∀ r, g r ≠ .undef) (stk : List (Cell (BitVec 16))) (hk : stk.length = 32) {σ : Type}
    (rb : RandomBytes σ) (st st1 st2 : σ) (r1 r2 : List Byte)
    (h1 : Delivers rb 32 st r1 st1) (h2 : Delivers rb 32 st1 r2 st2) (gs : M0.GS) (hg : gs.buf.length = 280 ∧ gs.s.length = 25)
    (pkb skb cb mb : List Byte) (hpk : pkb.length = 992) (hsk : skb.length = 1248) (hc : cb.length = 1088)
    (hmb : mb.length = 512) (m coins : List Byte) (hml : m.length = 32) (hcl : coins.length = 32) :
    ∃ pk sk c w, @M0.indcpa_kem_keypair (M0.linked g stk) σ M0.macWrap rb gs pkb skb st = .ok (pk, sk, st2) ∧
      @M0.indcpa_kem_enc (M0.linked g stk) M0.macWrap gs m 0 coins 0 pk 0 cb = .ok c ∧ M0.indcpa_kem_dec M0.macWrap sk c mb = .ok w ∧
      w.length = 512 ∧ ∀ i : Fin 256, w.getD (2 * i.val + 1) 0 = 0 ∧ (w.getD (2 * i.val) 0 = 0 ∨ w.getD (2 * i.val) 0 = 1) ∧
        (w.getD (2 * i.val) 0 = (if bitAt m i.val then 1 else 0) ↔
          NoiseOk (m0Noise (@genMatrix m0Permutation saber (@Spec.Keccak.shake128 m0Permutation r1 32)) (@genSecret m0Permutation saber r2)
            (@genSecret m0Permutation saber coins)) i) := by
  let _ := m0Permutation
  let _ := M0.linked g stk
  have := linked_ok g hgr stk hk
  exact C47_decrypt rb st st1 st2 r1 r2 h1 h2 gs hg pkb skb cb mb hpk hsk hc hmb m coins hml hcl

/-- C53: the keys of the build are not those of the reference implementation: if the first 32 random bytes are zero, the public keys differ,
whatever the other random bytes are. -/
theorem C53_keypair_differs (g : Reg → Val conc.W) (hg : ∀ r, g r ≠ .undef) (stk : List (Cell (BitVec 16))) (hk : stk.length = 32) {σ : Type}
    (rb : RandomBytes σ) (st st1 st2 st3 : σ) (r2 z : List Byte) (h1 : Delivers rb 32 st (List.replicate 32 0) st1) (h2 : Delivers rb 32 st1 r2 st2)
    (h3 : Delivers rb 32 st2 z st3) (gs : M0.GS) (hgs : gs.buf.length = 280 ∧ gs.s.length = 25) (pk sk : List Byte) (hpk : pk.length = 992)
    (hsk : sk.length = 2304) :
    ∃ pk1 sk1 pk2 sk2, @M0.crypto_kem_keypair (M0.linked g stk) σ M0.macWrap rb gs pk sk st = .ok (0, pk1, sk1, st3) ∧
      crypto_kem_keypair .saber rb pk sk st = .ok (0, pk2, sk2, st3) ∧ pk1 ≠ pk2 := by
  refine ⟨_, _, _, _, (C53_kem g hg stk hk rb st st1 st2 st3 _ r2 z h1 h2 h3 gs hgs pk sk (List.replicate 1088 0) (List.replicate 32 0) hpk hsk
    List.length_replicate List.length_replicate).1, crypto_kem_keypair_ok .saber rb st st1 st2 st3 _ r2 z h1 h2 h3 pk sk hpk hsk, fun h => ?_⟩
  have h := congrArg (fun l => (l.drop 960).take 8) h
  have key : ∀ P : Spec.Keccak.Permutation, ((@kemPk P saber (List.replicate 32 0) r2).drop 960).take 8 =
      @Spec.Keccak.shake128 P (List.replicate 32 0) 8 := by
    intro P
    unfold kemPk pkeKeyGenPk
    rw [List.drop_left' (by rw [length_packVec]; rfl), ← shake128_prefix _ 8 32 (by omega)]
  have h := (key m0Permutation).symm.trans (h.trans (key Spec.Keccak.standard))
  rw [shake128_zeros, shake128_zeros_m0] at h
  exact absurd h (by decide)

/-- The hypotheses of C53 are met, e.g. by a source of zero bytes. -/
example : ∃ rb : RandomBytes Unit, Delivers rb 32 () (List.replicate 32 0) () :=
  ⟨fun x off n st => .ok (writeAt x off (List.replicate n 0), st), by simp, fun x off _ => rfl⟩

end Saber.Props
