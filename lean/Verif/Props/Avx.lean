import Verif.Model.Avx.Kem
import Verif.Props.USaber
import Verif.Proof.Avx.Kem
import Verif.Proof.Avx.AesNi
import Verif.Proof.AesInj
/-!
# Properties of the AVX2 implementation (C54 to C57)
-/
namespace Saber.Props
open Spec

/-! ### C54: the multiplication -/

/-- The sequence of calls by which the program multiplies a list of pairs of polynomials and sums the products (SABER_indcpa.c:488-516):
load, `TC_eval` of each second factor, `toom_cook_4way_avx_n1` for each pair, `TC_interpol`, store.  `bb`, `c`, `r`, `va` are the
working arrays and `out` is the result array. -/
def avxInner (n : Nat) (a b : Nat → List (BitVec 16)) (va bb : List Avx.Vec) (c r : List Avx.Vec) (out : List (BitVec 16)) :
    CM (List (BitVec 16)) := do
  let c ← loop n c fun i c => do
    let x ← Avx.loadRow va (a i)
    let y ← Avx.loadRow va (b i)
    let y ← Avx.TC_eval y bb
    Avx.toom_cook_4way_avx_n1 x y c i
  let (_, r) ← Avx.TC_interpol c r
  Avx.storeRow out r

/-- C54: for every number of pairs of polynomials with arbitrary 16-bit coefficients, and whatever the working arrays contain, the result is
the sum of the products in `Z[X]/(X^256+1)` modulo `2^13`, and nothing outside of the arrays is accessed. -/
theorem C54_inner_product (n : Nat) (hn : n ≠ 0) (a b : Nat → List (BitVec 16)) (ha : ∀ i < n, (a i).length = 256) (hb : ∀ i < n, (b i).length = 256)
    (va bb c r : List Avx.Vec) (hva : va.length = 16) (hbb : bb.length = 64) (hc : c.length = 128) (hr : r.length = 16)
    (out : List (BitVec 16)) (ho : out.length = 256) :
    ∃ out', avxInner n a b va bb c r out = .ok out' ∧ out'.length = 256 ∧
      ∀ k, toP out' k % 8192 = (∑ i : Fin n, negMul (toP (a i)) (toP (b i)) k) % 8192 := by
  have hev : ∀ i, ∃ y, i < n → Avx.TC_eval (Avx.vecsOf (b i)) bb = .ok y ∧ Avx.EvalOf (Avx.vecsOf (b i)) y := by
    intro i
    by_cases hi : i < n
    · obtain ⟨y, h⟩ := Avx.TC_eval_spec (b := Avx.vecsOf (b i)) (by simp) hbb
      exact ⟨y, fun _ => h⟩
    · exact ⟨[], fun h => absurd h hi⟩
  choose y hy using hev
  unfold avxInner
  obtain ⟨c', h1, h2, h3⟩ := Avx.accLoop_ok (n := n) (a := fun i => Avx.vecsOf (a i)) (b := fun i => Avx.vecsOf (b i)) (b' := y)
    (fun i _ => Avx.length_vecsOf _) (fun i hi => (hy i hi).2) hc (body := fun i c => do
      let x ← Avx.loadRow va (a i)
      let y ← Avx.loadRow va (b i)
      let y ← Avx.TC_eval y bb
      Avx.toom_cook_4way_avx_n1 x y c i) fun i c hi => by
    rw [Avx.loadRow_ok hva (ha i hi), ok_bind, Avx.loadRow_ok hva (hb i hi), ok_bind, (hy i hi).1, ok_bind]
  rw [h1, ok_bind]
  obtain ⟨c'', r', h4, h5, h6, h7⟩ := Avx.interpol_ok (h3 hn) hr
  rw [h4, ok_bind]
  dsimp only
  rw [Avx.storeRow_ok ho h6]
  refine ⟨_, rfl, Avx.length_rowOf _, fun k => ?_⟩
  rw [Avx.toP_rowOf]
  have := h7 k
  simp only [Avx.vecP_vecsOf] at this
  rw [this, Finset.sum_range]

/-- C54: one product. -/
theorem C54_product (a b : List (BitVec 16)) (ha : a.length = 256) (hb : b.length = 256) (va bb c r : List Avx.Vec) (hva : va.length = 16)
    (hbb : bb.length = 64) (hc : c.length = 128) (hr : r.length = 16) (out : List (BitVec 16)) (ho : out.length = 256) :
    ∃ out', avxInner 1 (fun _ => a) (fun _ => b) va bb c r out = .ok out' ∧ out'.length = 256 ∧
      ∀ k, toP out' k % 8192 = negMul (toP a) (toP b) k % 8192 := by
  obtain ⟨o, h1, h2, h3⟩ := C54_inner_product 1 (by decide) (fun _ => a) (fun _ => b) (fun _ _ => ha) (fun _ _ => hb) va bb c r hva hbb hc hr out ho
  refine ⟨o, h1, h2, fun k => ?_⟩
  rw [h3 k]
  simp

/-- C54: the coefficients the routine returns agree modulo `2^13` with those of the reference implementation's `poly_mul_acc` on a zero
accumulator. -/
theorem C54_agrees_with_reference (a b : List (BitVec 16)) (ha : a.length = 256) (hb : b.length = 256) (va bb c r : List Avx.Vec)
    (hva : va.length = 16) (hbb : bb.length = 64) (hc : c.length = 128) (hr : r.length = 16) (out : List (BitVec 16)) (ho : out.length = 256) :
    ∃ out' ref, avxInner 1 (fun _ => a) (fun _ => b) va bb c r out = .ok out' ∧ poly_mul_acc a b (List.replicate 256 0) = .ok ref ∧
      ∀ k, toP out' k % 8192 = toP ref k % 8192 := by
  obtain ⟨o, h1, h2, h3⟩ := C54_product a b ha hb va bb c r hva hbb hc hr out ho
  obtain ⟨ref, h4, h5, h6⟩ := poly_mul_acc_ok (res := List.replicate 256 0) ha hb List.length_replicate
  refine ⟨o, ref, h1, h4, fun k => ?_⟩
  rw [h3 k]
  have := h6 k
  simp only [toP_zero, zero_add] at this
  exact this.symm

/-- The hypotheses are met. -/
example : ((List.range 256).map (BitVec.ofNat 16)).length = 256 ∧ (Avx.uninitVecs 1 16).length = 16 ∧ (Avx.uninitVecs 2 64).length = 64 ∧
    (Avx.uninitVecs 3 128).length = 128 := by
  refine ⟨by simp, ?_, ?_, ?_⟩ <;> exact Avx.length_uninitVecs _ _

/-! ### C55: the KEM of AVX_Implementation_KEM -/

theorem fips202_ok : Avx.LibOk Avx.fips202 USpec.fips202 where
  prf out outOff outlen inp inOff _ ho hi := shake128_ok out outOff outlen inp inOff 32 ho hi
  h out outOff inp inOff inlen _ ho hi := sha3_256_ok out outOff inp inOff inlen ho hi
  g out outOff inp inOff inlen _ ho hi := sha3_512_ok out outOff inp inOff inlen ho hi
  lenPrf _ _ _ := length_shake128 _ _
  lenH _ := length_sha3_256 _
  lenG _ := length_sha3_512 _

theorem avx_spec (P : PSet) (s90 : Bool) : Avx.spec P (U.Cfg.sym ⟨P, false, s90⟩) = variant ⟨P, false, s90⟩ := by
  rw [variant_eq]

/-- C55: key generation computes the key pair of the specification. -/
theorem C55_keypair_spec {σ : Type} (P : PSet) (rb : RandomBytes σ) (st st1 st2 st3 : σ) (r1 r2 z : List Byte)
    (h1 : Delivers rb 32 st r1 st1) (h2 : Delivers rb 32 st1 r2 st2) (h3 : Delivers rb 32 st2 z st3)
    (pk sk : List Byte) (hpk : pk.length = P.PUBLICKEYBYTES) (hsk : sk.length = P.SECRETKEYBYTES) :
    Avx.crypto_kem_keypair Avx.fips202 P rb pk sk st = .ok (0, kemPk (params P) r1 r2, kemSk (params P) r1 r2 z, st3) := by
  rw [Avx.crypto_kem_keypair_ok fips202_ok P rb st st1 st2 st3 r1 r2 z h1 h2 h3 pk sk hpk hsk, ← plain_kemPk, ← plain_kemSk, ← avx_spec]
  rfl

/-- C55: encapsulation computes the ciphertext and key of the specification, for every public key. -/
theorem C55_enc_spec {σ : Type} (P : PSet) (rb : RandomBytes σ) (st st1 : σ) (m0 : List Byte) (h : Delivers rb 32 st m0 st1)
    (c k pk : List Byte) (hc : c.length = P.BYTES_CCA_DEC) (hk : k.length = 32) (hpk : pk.length = P.PUBLICKEYBYTES) :
    Avx.crypto_kem_enc Avx.fips202 P rb c k pk st = .ok (0, encapsC (params P) m0 pk, encapsK (params P) m0 pk, st1) := by
  rw [Avx.crypto_kem_enc_ok fips202_ok P rb st st1 m0 h c k pk hc hk hpk, ← plain_encapsC, ← plain_encapsK, ← avx_spec]
  rfl

/-- C55: decapsulation computes the key of the specification, for every secret key and every ciphertext. -/
theorem C55_dec_spec (P : PSet) (k c sk : List Byte) (hk : k.length = 32) (hc : c.length = P.BYTES_CCA_DEC)
    (hsk : sk.length = P.SECRETKEYBYTES) : Avx.crypto_kem_dec Avx.fips202 P k c sk = .ok (0, decaps (params P) sk c) := by
  rw [Avx.crypto_kem_dec_ok fips202_ok P k c sk hk hc hsk, ← plain_decaps, ← avx_spec]
  rfl

/-- C55: the three functions return what those of the reference implementation return, for all buffers of the documented sizes; so keys,
ciphertexts and shared secrets of the two implementations can be mixed. -/
theorem C55_equals_reference {σ : Type} (P : PSet) (rb : RandomBytes σ) (hrb : ∀ st, ∃ r st', Delivers rb 32 st r st')
    (st : σ) (pk sk c k : List Byte) (hpk : pk.length = P.PUBLICKEYBYTES) (hsk : sk.length = P.SECRETKEYBYTES)
    (hc : c.length = P.BYTES_CCA_DEC) (hk : k.length = 32) :
    Avx.crypto_kem_keypair Avx.fips202 P rb pk sk st = crypto_kem_keypair P rb pk sk st ∧
    Avx.crypto_kem_enc Avx.fips202 P rb c k pk st = crypto_kem_enc P rb c k pk st ∧
    Avx.crypto_kem_dec Avx.fips202 P k c sk = crypto_kem_dec P k c sk := by
  obtain ⟨r1, st1, h1⟩ := hrb st
  obtain ⟨r2, st2, h2⟩ := hrb st1
  obtain ⟨z, st3, h3⟩ := hrb st2
  refine ⟨?_, ?_, ?_⟩
  · rw [C01_keypair_spec P rb st st1 st2 st3 r1 r2 z h1 h2 h3 pk sk hpk hsk, C55_keypair_spec P rb st st1 st2 st3 r1 r2 z h1 h2 h3 pk sk hpk hsk]
  · rw [C02_enc_spec P rb st st1 r1 h1 c k pk hc hk hpk, C55_enc_spec P rb st st1 r1 h1 c k pk hc hk hpk]
  · rw [C03_dec_spec P k c sk hk hc hsk, C55_dec_spec P k c sk hk hc hsk]

/-- C55: none of the three functions has undefined behaviour, whatever the buffers contain. -/
theorem C55_no_UB {σ : Type} (P : PSet) (rb : RandomBytes σ) (hrb : ∀ st, ∃ r st', Delivers rb 32 st r st')
    (st : σ) (pk sk c k : List Byte) (hpk : pk.length = P.PUBLICKEYBYTES) (hsk : sk.length = P.SECRETKEYBYTES)
    (hc : c.length = P.BYTES_CCA_DEC) (hk : k.length = 32) :
    (∃ out, Avx.crypto_kem_keypair Avx.fips202 P rb pk sk st = .ok out) ∧ (∃ out, Avx.crypto_kem_enc Avx.fips202 P rb c k pk st = .ok out) ∧
      (∃ out, Avx.crypto_kem_dec Avx.fips202 P k c sk = .ok out) := by
  obtain ⟨r1, st1, h1⟩ := hrb st
  obtain ⟨r2, st2, h2⟩ := hrb st1
  obtain ⟨z, st3, h3⟩ := hrb st2
  exact ⟨⟨_, C55_keypair_spec P rb st st1 st2 st3 r1 r2 z h1 h2 h3 pk sk hpk hsk⟩, ⟨_, C55_enc_spec P rb st st1 r1 h1 c k pk hc hk hpk⟩,
    ⟨_, C55_dec_spec P k c sk hk hc hsk⟩⟩

/-- The hypotheses of the theorems on the KEM are met. -/
example : ∃ st1 st2 st3 : List Byte × List Nat, ∃ r1 r2 z,
    Delivers tapeRng 32 ((List.range 96).map n8, []) r1 st1 ∧ Delivers tapeRng 32 st1 r2 st2 ∧ Delivers tapeRng 32 st2 z st3 ∧
    (List.replicate 992 (7 : Byte)).length = PSet.PUBLICKEYBYTES .saber ∧
    (List.replicate 2304 (7 : Byte)).length = PSet.SECRETKEYBYTES .saber := by
  refine ⟨_, _, _, _, _, _, tapeRng_delivers 32 _ _ (by simp), tapeRng_delivers 32 _ _ (by simp), tapeRng_delivers 32 _ _ (by simp), ?_, ?_⟩
    <;> rw [List.length_replicate] <;> decide +kernel

/-! ### C56: the AES-NI key stream of the 90s variant -/
section
open Spec.Aes U.Aes Avx.AesNi

/-- C56: `crypto_stream_aes256ctr(out, outlen, n, k)` writes `outlen` bytes of the key stream of AES-256 in counter mode with a 128-bit counter
that starts at the nonce, for every key and every length, if the lower 64 bits of the nonce are not a multiple of 8 or do not overflow
during the call.  It changes nothing else and accesses no memory outside of its buffers. -/
theorem C56_ctr128 (out : List Byte) (outOff outlen : Nat) (n k : List Byte) (kOff : Nat) (ho : outOff + outlen ≤ out.length) (hn : n.length = 16)
    (hk : kOff + 32 ≤ k.length) (hw : beNat (n.drop 8) % 8 ≠ 0 ∨ outlen ≤ 16 * (2 ^ 64 - beNat (n.drop 8))) :
    crypto_stream_aes256ctr out outOff outlen n k kOff = .ok (writeAt out outOff (ctr128 ((k.drop kOff).take 32) n outlen)) := by
  rw [stream_ok out outOff outlen n k kOff ho hn hk, ctr128]
  obtain ⟨e, hH, hL⟩ := beNat_halves n hn
  rw [ctrBlocks_congr _ (cnt (beNat (n.take 8)) (beNat (n.drop 8))) (fun i => beNat n + i)]
  intro i hi
  unfold cnt
  generalize beNat (n.take 8) = H at *
  generalize beNat (n.drop 8) = L at *
  rw [e]
  split
  · have hL8 : (L + i) % 2 ^ 64 = L + i := Nat.mod_eq_of_lt (by omega)
    rw [hL8, Nat.add_assoc]
  · rfl

/-- C56: if the lower 64 bits of the nonce are a multiple of 8, the carry into the higher 64 bits is lost: the counter of block `i` has the
higher half of the nonce and the lower half incremented modulo `2^64`. -/
theorem C56_no_carry (out : List Byte) (outOff outlen : Nat) (n k : List Byte) (kOff : Nat) (ho : outOff + outlen ≤ out.length) (hn : n.length = 16)
    (hk : kOff + 32 ≤ k.length) (hw : beNat (n.drop 8) % 8 = 0) :
    crypto_stream_aes256ctr out outOff outlen n k kOff
      = .ok (writeAt out outOff (ctrBlocks ((k.drop kOff).take 32)
          (fun i => beNat (n.take 8) * 2 ^ 64 + (beNat (n.drop 8) + i) % 2 ^ 64) outlen)) := by
  rw [stream_ok out outOff outlen n k kOff ho hn hk]
  obtain ⟨e, hH, hL⟩ := beNat_halves n hn
  rw [ctrBlocks_congr _ (cnt (beNat (n.take 8)) (beNat (n.drop 8))) (fun i => beNat (n.take 8) * 2 ^ 64 + (beNat (n.drop 8) + i) % 2 ^ 64)]
  intro i hi
  rw [cnt, if_pos hw]

theorem be128_inj {c d : Nat} (h : be128 c = be128 d) : c % 2 ^ 128 = d % 2 ^ 128 := by
  have hj : ∀ j, j < 16 → c / 256 ^ j % 256 = d / 256 ^ j % 256 := fun j hj => by
    have := congrArg (fun l : List Byte => (l.getD (15 - j) 0).toNat) h
    dsimp only [be128] at this
    rw [getD_map_range _ _ _ _ (by omega), getD_map_range _ _ _ _ (by omega), BitVec.toNat_ofNat, BitVec.toNat_ofNat, show 15 - (15 - j) = j by omega] at this
    exact this
  have hk : ∀ k, k ≤ 16 → c % 256 ^ k = d % 256 ^ k := fun k => by
    induction k with
    | zero => intro _; rw [Nat.pow_zero, Nat.mod_one, Nat.mod_one]
    | succ k ih => intro hk; rw [Nat.pow_succ, Nat.mod_mul, Nat.mod_mul, ih (by omega), hj k (by omega)]
  exact hk 16 (Nat.le_refl _)

/-- C56, the claim "the output is the key stream with a 128-bit counter" is false of the code: for every key, and every nonce whose lower 64 bits
are a multiple of 8, every request that contains a whole block after the overflow of the lower half gets a different result. -/
theorem C56_not_ctr128 (out : List Byte) (outOff outlen : Nat) (n k : List Byte) (kOff : Nat) (ho : outOff + outlen ≤ out.length) (hn : n.length = 16)
    (hk : kOff + 32 ≤ k.length) (hw : beNat (n.drop 8) % 8 = 0) (hl : 16 * (2 ^ 64 - beNat (n.drop 8)) + 16 ≤ outlen) :
    crypto_stream_aes256ctr out outOff outlen n k kOff ≠ .ok (writeAt out outOff (ctr128 ((k.drop kOff).take 32) n outlen)) := by
  rw [C56_no_carry out outOff outlen n k kOff ho hn hk hw]
  intro h
  have hkl : ((k.drop kOff).take 32).length = 32 := by simp; omega
  obtain ⟨e, hH, hL⟩ := beNat_halves n hn
  generalize (k.drop kOff).take 32 = key at *
  have h := Except.ok.inj h
  have h2 := congrArg (fun l : List Byte => (l.drop outOff).take outlen) h
  have hr : ∀ c : Nat → Nat, ((writeAt out outOff (ctrBlocks key c outlen)).drop outOff).take outlen = ctrBlocks key c outlen := fun c => by
    have := writeAt_read out (ctrBlocks key c outlen) outOff (by omega)
    rwa [length_ctrBlocks _ _ _ hkl] at this
  dsimp only [ctr128] at h2
  rw [hr, hr] at h2
  obtain ⟨b, hb⟩ : ∃ b, b = 2 ^ 64 - beNat (n.drop 8) := ⟨_, rfl⟩
  have hblk : aes256 key (be128 (beNat (n.take 8) * 2 ^ 64 + (beNat (n.drop 8) + b) % 2 ^ 64)) = aes256 key (be128 (beNat n + b)) := by
    apply ext_getD 0
    · rw [length_aes256 _ _ hkl, length_aes256 _ _ hkl]
    · intro j hj
      rw [length_aes256 _ _ hkl] at hj
      have := congrArg (fun l : List Byte => l.getD (16 * b + j) 0) h2
      rw [getD_ctrBlocks _ _ _ _ hkl (by omega), getD_ctrBlocks _ _ _ _ hkl (by omega), show (16 * b + j) / 16 = b by omega,
        show (16 * b + j) % 16 = j by omega] at this
      exact this
  have := be128_inj (aes256_inj hkl (by simp [be128]) (by simp [be128]) hblk)
  omega

/-- C56, the consequence: the key streams of two different nonces overlap.  For every key, what a nonce with lower half `2^64 - 8 j`
yields after `8 j` blocks is what the nonce with the same higher half and lower half 0 yields from the start. -/
theorem C56_overlap (key : List Byte) (hk : key.length = 32) (n n' : List Byte) (hn : n.length = 16) (hn' : n'.length = 16) (j len : Nat) (hj : 0 < j)
    (hj2 : j < 2 ^ 61) (h1 : n.take 8 = n'.take 8) (h2 : beNat (n.drop 8) = 2 ^ 64 - 8 * j) (h3 : beNat (n'.drop 8) = 0) :
    ∃ s s', crypto_stream_aes256ctr (List.replicate (128 * j + len) 0) 0 (128 * j + len) n key 0 = .ok s ∧
      crypto_stream_aes256ctr (List.replicate len 0) 0 len n' key 0 = .ok s' ∧ s.drop (128 * j) = s' := by
  have hk' : (key.drop 0).take 32 = key := by rw [List.drop_zero, List.take_of_length_le (by omega)]
  refine ⟨_, _, C56_no_carry _ 0 _ n key 0 (by simp) hn (by omega) (by omega), C56_no_carry _ 0 _ n' key 0 (by simp) hn' (by omega) (by omega), ?_⟩
  rw [hk', writeAt_full _ _ (by rw [length_ctrBlocks _ _ _ hk, List.length_replicate]), writeAt_full _ _ (by rw [length_ctrBlocks _ _ _ hk, List.length_replicate])]
  apply ext_getD 0
  · rw [List.length_drop, length_ctrBlocks _ _ _ hk, length_ctrBlocks _ _ _ hk]; omega
  · intro m hm
    rw [List.length_drop, length_ctrBlocks _ _ _ hk] at hm
    rw [getD_ctrBlocks _ _ _ _ hk (by omega), List.getD_eq_getElem?_getD, List.getElem?_drop, ← List.getD_eq_getElem?_getD, getD_ctrBlocks _ _ _ _ hk (by omega)]
    rw [h1, h2, h3, show (128 * j + m) / 16 = 8 * j + m / 16 by omega, show (128 * j + m) % 16 = m % 16 by omega,
      show (2 ^ 64 - 8 * j + (8 * j + m / 16)) % 2 ^ 64 = (0 + m / 16) % 2 ^ 64 by omega]

/-- Concrete cases that meet the hypotheses: the zero nonce of the program and 1000 bytes (`C56_ctr128`); a nonce of which the lower 64
bits overflow after 8 blocks, and 144 bytes (`C56_not_ctr128`, `C56_overlap`). -/
example : (beNat ((List.replicate 16 (0 : Byte)).drop 8) % 8 ≠ 0 ∨ 1000 ≤ 16 * (2 ^ 64 - beNat ((List.replicate 16 (0 : Byte)).drop 8))) ∧
    (let n : List Byte := List.replicate 15 0xff ++ [0xf8]
     let n' : List Byte := List.replicate 8 0xff ++ List.replicate 8 0
     n.length = 16 ∧ beNat (n.drop 8) % 8 = 0 ∧ 16 * (2 ^ 64 - beNat (n.drop 8)) + 16 ≤ 144 ∧
     n.take 8 = n'.take 8 ∧ beNat (n.drop 8) = 2 ^ 64 - 8 * 1 ∧ beNat (n'.drop 8) = 0) := by
  decide +kernel

/-- C56: `saber_aes256ctr_prf` of this directory (AES-NI) returns what the one of the `ref` directory (portable code, C44) returns, for every
seed and every length up to `2^36` bytes; both write the key stream of AES-256 in counter mode from the zero nonce. -/
theorem C56_prf (out : List Byte) (outOff outlen : Nat) (k : List Byte) (kOff : Nat) (ho : outOff + outlen ≤ out.length) (hk : kOff + 32 ≤ k.length)
    (hl : outlen ≤ 2 ^ 36) :
    Avx.AesNi.saber_aes256ctr_prf out outOff outlen k kOff = .ok (writeAt out outOff (ctr ((k.drop kOff).take 32) (List.replicate 12 0) outlen)) ∧
    U.saber_aes256ctr_prf out outOff outlen k kOff = Avx.AesNi.saber_aes256ctr_prf out outOff outlen k kOff := by
  have h := Avx.AesNi.prf_ok out outOff outlen k kOff ho hk hl
  refine ⟨h, ?_⟩
  rw [h]
  exact U.prf_ok ⟨.saber, false, true⟩ out outOff outlen k kOff ho hk

end

/-! ### C57: the KEM of Variants/uSaber-90s/avx2 -/

/-- SHA-256 and SHA-512 of OpenSSL, as called by the macros `hash_h` and `hash_g` (symmetric.h:12,13): output, offset, input, offset, length. -/
structure ShaLib where
  sha256 : List Byte → Nat → List Byte → Nat → Nat → CM (List Byte)
  sha512 : List Byte → Nat → List Byte → Nat → Nat → CM (List Byte)

/-- The functions compute the digests of FIPS 180-4 and write nothing else. -/
structure ShaLib.Correct (l : ShaLib) : Prop where
  sha256 : ∀ (out : List Byte) (outOff : Nat) (inp : List Byte) (inOff inlen : Nat), inlen < 2 ^ 61 → outOff + 32 ≤ out.length →
    inOff + inlen ≤ inp.length → l.sha256 out outOff inp inOff inlen = .ok (writeAt out outOff (USpec.s90.H ((inp.drop inOff).take inlen)))
  sha512 : ∀ (out : List Byte) (outOff : Nat) (inp : List Byte) (inOff inlen : Nat), inlen < 2 ^ 61 → outOff + 64 ≤ out.length →
    inOff + inlen ≤ inp.length → l.sha512 out outOff inp inOff inlen = .ok (writeAt out outOff (USpec.s90.G ((inp.drop inOff).take inlen)))

/-- The symmetric functions of the build (symmetric.h:8-15 with `Saber90s` defined, as in SABER_params.h): the AES-NI key stream and OpenSSL. -/
def avx90s (l : ShaLib) : Avx.Lib := ⟨fun out outOff outlen inp inOff _ => Avx.AesNi.saber_aes256ctr_prf out outOff outlen inp inOff, l.sha256, l.sha512⟩

theorem avx90s_ok {l : ShaLib} (h : l.Correct) : Avx.LibOk (avx90s l) USpec.s90 where
  prf out outOff outlen inp inOff hl ho hi := Avx.AesNi.prf_ok out outOff outlen inp inOff ho hi hl
  h := h.sha256
  g := h.sha512
  lenPrf seed n hs := U.length_prf ⟨.saber, false, true⟩ seed n hs
  lenH x := U.length_H ⟨.saber, false, true⟩ x
  lenG x := U.length_G ⟨.saber, false, true⟩ x

/-- The contract is met by the code of the `ref` directory (C43), so the theorems below are not vacuous. -/
theorem sha_correct : ShaLib.Correct ⟨U.hash_h ⟨.saber, false, true⟩, U.hash_g ⟨.saber, false, true⟩⟩ where
  sha256 out outOff inp inOff inlen hl ho hi := U.hash_h_ok ⟨.saber, false, true⟩ out outOff inp inOff inlen ho hi hl
  sha512 out outOff inp inOff inlen hl ho hi := U.hash_g_ok ⟨.saber, false, true⟩ out outOff inp inOff inlen ho hi hl

/-- C57: key generation computes the key pair of Saber-90s. -/
theorem C57_keypair_spec {σ : Type} {l : ShaLib} (hl : l.Correct) (P : PSet) (rb : RandomBytes σ) (st st1 st2 st3 : σ) (r1 r2 z : List Byte)
    (h1 : Delivers rb 32 st r1 st1) (h2 : Delivers rb 32 st1 r2 st2) (h3 : Delivers rb 32 st2 z st3)
    (pk sk : List Byte) (hpk : pk.length = P.PUBLICKEYBYTES) (hsk : sk.length = P.SECRETKEYBYTES) :
    Avx.crypto_kem_keypair (avx90s l) P rb pk sk st
      = .ok (0, USpec.kemPk (variant ⟨P, false, true⟩) r1 r2, USpec.kemSk (variant ⟨P, false, true⟩) r1 r2 z, st3) := by
  rw [Avx.crypto_kem_keypair_ok (avx90s_ok hl) P rb st st1 st2 st3 r1 r2 z h1 h2 h3 pk sk hpk hsk, ← avx_spec]
  rfl

/-- C57: encapsulation computes the ciphertext and key of Saber-90s, for every public key. -/
theorem C57_enc_spec {σ : Type} {l : ShaLib} (hl : l.Correct) (P : PSet) (rb : RandomBytes σ) (st st1 : σ) (m0 : List Byte)
    (h : Delivers rb 32 st m0 st1) (c k pk : List Byte) (hc : c.length = P.BYTES_CCA_DEC) (hk : k.length = 32) (hpk : pk.length = P.PUBLICKEYBYTES) :
    Avx.crypto_kem_enc (avx90s l) P rb c k pk st
      = .ok (0, USpec.encapsC (variant ⟨P, false, true⟩) m0 pk, USpec.encapsK (variant ⟨P, false, true⟩) m0 pk, st1) := by
  rw [Avx.crypto_kem_enc_ok (avx90s_ok hl) P rb st st1 m0 h c k pk hc hk hpk, ← avx_spec]
  rfl

/-- C57: decapsulation computes the key of Saber-90s, for every secret key and every ciphertext. -/
theorem C57_dec_spec {l : ShaLib} (hl : l.Correct) (P : PSet) (k c sk : List Byte) (hk : k.length = 32) (hc : c.length = P.BYTES_CCA_DEC)
    (hsk : sk.length = P.SECRETKEYBYTES) :
    Avx.crypto_kem_dec (avx90s l) P k c sk = .ok (0, USpec.decaps (variant ⟨P, false, true⟩) sk c) := by
  rw [Avx.crypto_kem_dec_ok (avx90s_ok hl) P k c sk hk hc hsk, ← avx_spec]
  rfl

theorem plain_sizes (P : PSet) (s90 : Bool) : U.Cfg.PUBLICKEYBYTES ⟨P, false, s90⟩ = P.PUBLICKEYBYTES ∧
    U.Cfg.SECRETKEYBYTES ⟨P, false, s90⟩ = P.SECRETKEYBYTES ∧ U.Cfg.BYTES_CCA_DEC ⟨P, false, s90⟩ = P.BYTES_CCA_DEC := by
  cases P <;> exact ⟨rfl, rfl, rfl⟩

/-- C57: the three functions return what those of the `ref` directory return in a build with `Saber90s` and without `uSaber`. -/
theorem C57_equals_ref {σ : Type} {l : ShaLib} (hl : l.Correct) (P : PSet) (rb : RandomBytes σ) (hrb : ∀ st, ∃ r st', Delivers rb 32 st r st')
    (st : σ) (pk sk c k : List Byte) (hpk : pk.length = P.PUBLICKEYBYTES) (hsk : sk.length = P.SECRETKEYBYTES)
    (hc : c.length = P.BYTES_CCA_DEC) (hk : k.length = 32) :
    Avx.crypto_kem_keypair (avx90s l) P rb pk sk st = U.crypto_kem_keypair ⟨P, false, true⟩ rb pk sk st ∧
    Avx.crypto_kem_enc (avx90s l) P rb c k pk st = U.crypto_kem_enc ⟨P, false, true⟩ rb c k pk st ∧
    Avx.crypto_kem_dec (avx90s l) P k c sk = U.crypto_kem_dec ⟨P, false, true⟩ k c sk := by
  obtain ⟨r1, st1, h1⟩ := hrb st
  obtain ⟨r2, st2, h2⟩ := hrb st1
  obtain ⟨z, st3, h3⟩ := hrb st2
  obtain ⟨e1, e2, e3⟩ := plain_sizes P true
  refine ⟨?_, ?_, ?_⟩
  · rw [C57_keypair_spec hl P rb st st1 st2 st3 r1 r2 z h1 h2 h3 pk sk hpk hsk,
      C35_keypair_spec _ rb st st1 st2 st3 r1 r2 z h1 h2 h3 pk sk (hpk.trans e1.symm) (hsk.trans e2.symm)]
  · rw [C57_enc_spec hl P rb st st1 r1 h1 c k pk hc hk hpk, C35_enc_spec _ rb st st1 r1 h1 c k pk (hc.trans e3.symm) hk (hpk.trans e1.symm)]
  · rw [C57_dec_spec hl P k c sk hk hc hsk, C35_dec_spec _ k c sk hk (hc.trans e3.symm) (hsk.trans e2.symm)]

/-- C57: as distributed, `avx2` (SABER_params.h: `Saber90s`, 13-bit keys) and `ref` (SABER_params.h: `uSaber`, no `Saber90s`) are different
schemes: the secret keys of the default builds have different sizes for every parameter set. -/
theorem C57_default_builds_differ (P : PSet) : U.Cfg.SECRETKEYBYTES ⟨P, true, false⟩ ≠ P.SECRETKEYBYTES := by
  cases P <;> decide

/-- The hypotheses of the theorems on the KEM are met. -/
example : ∃ l : ShaLib, l.Correct ∧ ∃ st1 st2 st3 : List Byte × List Nat, ∃ r1 r2 z,
    Delivers tapeRng 32 ((List.range 96).map n8, []) r1 st1 ∧ Delivers tapeRng 32 st1 r2 st2 ∧ Delivers tapeRng 32 st2 z st3 ∧
    (List.replicate 992 (7 : Byte)).length = PSet.PUBLICKEYBYTES .saber ∧
    (List.replicate 2304 (7 : Byte)).length = PSet.SECRETKEYBYTES .saber := by
  refine ⟨_, sha_correct, _, _, _, _, _, _, tapeRng_delivers 32 _ _ (by simp), tapeRng_delivers 32 _ _ (by simp), tapeRng_delivers 32 _ _ (by simp), ?_, ?_⟩
    <;> rw [List.length_replicate] <;> decide +kernel

end Saber.Props
