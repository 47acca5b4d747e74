import Verif.Proof.M0.Correct
import Verif.Proof.M0.Prng
/-!
# The Cortex-M0 port: C40, C41, C46 to C49

`M0.macWrap` is the multiply-accumulate step with wrapping arithmetic, `M0.macC` the step by the letter of the C standard, which can
overflow (C45).  `gs` is the content of the static variables of `GenMatrix_poly`; only their sizes matter.
-/
namespace Saber.Props
open Spec

/-! ### Comparison and conditional move -/

/-- C41: the comparison of ciphertexts returns 0 on equal arrays and 1 otherwise, and reads nothing outside of them. -/
theorem C41_verify (a : List Byte) (aOff : Nat) (b : List Byte) (bOff len : Nat) (ha : aOff + len ≤ a.length) (hb : bOff + len ≤ b.length) :
    M0.verify a aOff b bOff len = .ok (if (a.drop aOff).take len = (b.drop bOff).take len then 0 else 1) := by
  unfold M0.verify
  obtain ⟨r, h1, h2, h3⟩ := verify_loop_w (w := 32) (by omega) a aOff b bOff len ha hb
  rw [h1, ok_bind]
  dsimp only
  have h4 := take_drop_eq_iff _ _ _ _ _ ha hb
  rw [pure_eq_ok, BitVec.toNat_ushiftRight, BitVec.toNat_neg, Nat.shiftRight_eq_div_pow]
  by_cases e : r = 0
  · rw [if_pos (h4.2 (h3.1 e)), e]; rfl
  · have : r.toNat ≠ 0 := fun h => e (BitVec.eq_of_toNat_eq (by simpa using h))
    rw [if_neg fun h => e (h3.2 (h4.1 h))]
    congr 1
    omega

/-- C41: the conditional move copies `x` to `r` if `b` is 1 and leaves `r` unchanged if `b` is 0. -/
theorem C41_cmov (r : List Byte) (rOff : Nat) (x : List Byte) (xOff len : Nat) (b : Byte) (hb : b = 0 ∨ b = 1)
    (hr : rOff + len ≤ r.length) (hx : xOff + len ≤ x.length) :
    M0.cmov r rOff x xOff len b = .ok (if b = 1 then writeAt r rOff ((x.drop xOff).take len) else r) := by
  have e : M0.cmov r rOff x xOff len b = Saber.cmov r rOff x xOff len b := rfl
  rcases hb with rfl | rfl
  · rw [e, cmov_zero_ok r rOff x xOff len hr hx, if_neg (by decide)]
  · rw [e, cmov_one_ok r rOff x xOff len hr hx, if_pos rfl]

example : M0.verify [1, 2, 3] 1 [9, 2, 3] 1 2 = .ok 0 := by decide
example : M0.verify [1, 2, 3] 0 [9, 2, 3] 0 2 = .ok 1 := by decide
example : M0.cmov [1, 2, 3] 1 [7, 8, 9] 0 2 1 = .ok [1, 7, 8] := by decide

/-! ### Decapsulation -/

/-- C40: decapsulation writes outside of its message buffer, for every key and every ciphertext. -/
theorem C40_dec_out_of_bounds [Keccak.Permutation] [StatePermute] [Permutes] (gs : M0.GS) (k c sk : List Byte) (hc : c.length = 1088) (hsk : sk.length = 2304) :
    M0.crypto_kem_dec M0.macWrap gs k c sk = .error .oob := by
  obtain ⟨e, h, he⟩ := M0.crypto_kem_dec_m0 M0.macWrap_spec gs k c sk (by omega) (by omega)
  rcases he with he | rfl
  · exact he.elim
  · exact h

/-- C40: by the letter of the C standard, every decapsulation has undefined behaviour: the write outside of the buffer, or an overflow
before it. -/
theorem C40_dec_undefined [Keccak.Permutation] [StatePermute] [Permutes] (gs : M0.GS) (k c sk : List Byte) (hc : c.length = 1088) (hsk : sk.length = 2304) :
    M0.crypto_kem_dec M0.macC gs k c sk = .error .oob ∨ M0.crypto_kem_dec M0.macC gs k c sk = .error .signedOverflow := by
  obtain ⟨e, h, he⟩ := M0.crypto_kem_dec_m0 M0.macC_spec gs k c sk (by omega) (by omega)
  rcases he with rfl | rfl
  · exact .inr h
  · exact .inl h

/-- C40: decryption needs a message buffer of 512 bytes; `crypto_kem_dec` provides 64. -/
theorem C40_decrypt_needs_512 (sk c m : List Byte) (hc : c.length = 1088) (hsk : 1248 ≤ sk.length) :
    (∃ out, M0.indcpa_kem_dec M0.macWrap sk c m = .ok out) ↔ 512 ≤ m.length := by
  have H := M0.dec_m0 M0.macWrap_spec sk c m hsk (by omega)
  constructor
  · rintro ⟨out, h⟩
    by_contra hm
    rcases H.2 (by omega) with ⟨_, _, hf⟩ | ⟨e, he, _⟩
    · exact hf
    · rw [he] at h; cases h
  · intro hm
    obtain ⟨o, h, _⟩ := (H.1 hm).to_ok
    exact ⟨o, h⟩

/-- The hypotheses of C40 are met. -/
example : ∃ (gs : M0.GS) (k c sk : List Byte), c.length = 1088 ∧ sk.length = 2304 ∧
    M0.crypto_kem_dec M0.macWrap gs k c sk = .error .oob :=
  ⟨⟨[], [], 0, 0⟩, [], List.replicate 1088 7, List.replicate 2304 9, List.length_replicate, List.length_replicate,
    C40_dec_out_of_bounds _ _ _ _ List.length_replicate List.length_replicate⟩

/-! ### Packing -/

/-- C41: the packing functions store the bit streams of the specification. -/
theorem C41_pack (bytes : List Byte) (off : Nat) (data : List (BitVec 16)) (v : List (List (BitVec 16))) (hd : data.length = 256)
    (hv : v.length = 3 ∧ ∀ i, i < 3 → (v.getD i []).length = 256) (hb : off + 1248 ≤ bytes.length) :
    M0.SABER_pack_4bit bytes off data = .ok (writeAt bytes off (pack 4 (toP data))) ∧
    M0.SABER_pack_6bit bytes off data = .ok (writeAt bytes off (pack 6 (toP data))) ∧
    M0.POLVECp2BS bytes off v = .ok (writeAt bytes off (packVec 10 (toV 3 v))) ∧
    M0.POLVECq2BS bytes off v = .ok (writeAt bytes off (packVec 13 (toV 3 v))) ∧
    ∀ i, i < 3 → M0.POLp2BS bytes off data i = .ok (writeAt bytes (off + 320 * i) (pack 10 (toP data))) :=
  ⟨by rw [M0.pack4_eq]; exact POLT2BS_4_ok _ _ _ hd (by omega), M0.pack6_ok _ _ _ hd (by omega), M0.POLVECp2BS_m0 _ _ _ hv (by omega),
    M0.POLVECq2BS_m0 _ _ _ hv (by omega), fun i hi => M0.POLp2BS_m0 _ _ _ _ hd (by omega)⟩

/-- C41: the unpacking functions read the bit streams of the specification. -/
theorem C41_unpack (bytes : List Byte) (off : Nat) (data : List (BitVec 16)) (v : List (List (BitVec 16))) (hd : data.length = 256)
    (hv : v.length = 3 ∧ ∀ i, i < 3 → (v.getD i []).length = 256) (hb : off + 1248 ≤ bytes.length) :
    M0.SABER_un_pack3bit bytes off data = .ok (ofP (unpack 3 (bytes.drop off))) ∧
    M0.SABER_un_pack4bit bytes off data = .ok (ofP (unpack 4 (bytes.drop off))) ∧
    M0.SABER_un_pack6bit bytes off data = .ok (ofP (unpack 6 (bytes.drop off))) ∧
    M0.BS2POLVECp bytes off v = .ok (ofV (unpackVec 10 3 (bytes.drop off))) ∧
    M0.BS2POLVECq bytes off v = .ok (ofV (unpackVec 13 3 (bytes.drop off))) ∧
    ∀ i, i < 3 → M0.BS2POLp i bytes off data = .ok (ofP (unpack 10 (bytes.drop (off + 320 * i)))) :=
  ⟨by rw [M0.unpack3_eq]; exact BS2POLT_3_ok _ _ _ hd (by omega), by rw [M0.unpack4_eq]; exact BS2POLT_4_ok _ _ _ hd (by omega),
    by rw [M0.unpack6_eq]; exact BS2POLT_6_ok _ _ _ hd (by omega), by rw [M0.BS2POLVECp_eq]; exact BS2POLVECp_ok .saber _ _ _ hv (by show off + 960 ≤ _; omega),
    M0.BS2POLVECq_m0 _ _ _ hv (by omega), fun i hi => M0.BS2POLp_m0 _ _ _ _ hd (by omega)⟩

/-- C41: what 3-bit packing followed by unpacking returns: coefficient `i` modulo 8, except that the lowest bit of every coefficient
number `8 j + 5` is replaced by its highest. -/
theorem C41_pack3_effect (bytes : List Byte) (data data' : List (BitVec 16)) (hd : data.length = 256) (hd' : data'.length = 256)
    (hb : bytes.length = 96) :
    ∃ packed r, M0.SABER_pack_3bit bytes 0 data = .ok packed ∧ M0.SABER_un_pack3bit packed 0 data' = .ok r ∧
      ∀ i : Fin 256, toP r i = if i.val % 8 = 5 then toP data i / 2 % 4 * 2 + toP data i / 4 % 2 else toP data i % 8 := by
  have hu : M0.SABER_un_pack3bit (writeAt bytes 0 (pack 3 (M0.garble3 (toP data)))) 0 data' =
      .ok (ofP (unpack 3 ((writeAt bytes 0 (pack 3 (M0.garble3 (toP data)))).drop 0))) := by
    rw [M0.unpack3_eq]
    exact BS2POLT_3_ok _ _ _ hd' (by rw [writeAt_full _ _ (by rw [length_pack]; omega), length_pack])
  refine ⟨_, _, M0.pack3_ok bytes 0 data hd (by omega), hu, ?_⟩
  · intro i
    rw [writeAt_full _ _ (by rw [length_pack]; omega), List.drop_zero, M0.toP_ofP_unpack 3 (by omega), ← List.append_nil (pack _ _), unpack_pack]
    simp only [M0.garble3]
    split
    · have hu : 0 ≤ toP data i / 2 % 4 ∧ toP data i / 2 % 4 < 4 := by omega
      have hw : 0 ≤ toP data i / 4 % 2 ∧ toP data i / 4 % 2 < 2 := by omega
      generalize toP data i / 2 % 4 = u at *
      generalize toP data i / 4 % 2 = w at *
      omega
    · rfl

/-- C41: 3-bit packing does not round trip. -/
theorem C41_pack3_no_round_trip : ∃ (data packed r : List (BitVec 16)) (bytes out : List Byte),
    data.length = 256 ∧ (∀ i, toP data i < 8) ∧ bytes.length = 96 ∧ packed.length = 256 ∧
    M0.SABER_pack_3bit bytes 0 data = .ok out ∧ M0.SABER_un_pack3bit out 0 packed = .ok r ∧ ∃ i, toP r i ≠ toP data i := by
  obtain ⟨out, r, h1, h2, h3⟩ := C41_pack3_effect (List.replicate 96 0) (List.replicate 256 1) (List.replicate 256 0)
    List.length_replicate List.length_replicate List.length_replicate
  have e : ∀ i : Fin 256, toP (List.replicate 256 (1 : BitVec 16)) i = 1 := fun i => by
    unfold toP
    rw [List.getD_replicate _ i.isLt]; rfl
  refine ⟨_, _, r, _, out, List.length_replicate, fun i => by rw [e]; norm_num, List.length_replicate, List.length_replicate, h1, h2, 5, ?_⟩
  rw [h3 5, e]
  decide

/-! ### Sampling -/

/-- The nine calls of `GenMatrix_poly` that both matrix products make, in their order and with their arguments; the polynomials are
collected. -/
def genMatrixCalls (seed : List Byte) (gs : M0.GS) : CM (List (List (BitVec 16))) := do
  let (out, _, _) ← loop 9 ([], List.replicate 256 0, gs) fun k (out, temp, g) => do
    let (temp, g) ← M0.GenMatrix_poly temp seed 0 (k / 3 + k % 3) g
    pure (out ++ [temp], temp, g)
  pure out

/-- C41: the nine calls produce the entries of the reference implementation's matrix, row by row, whatever the static variables
contain at the start. -/
theorem C41_gen_matrix (seed : List Byte) (hs : seed.length = 32) (gs : M0.GS) (hg : gs.buf.length = 280 ∧ gs.s.length = 25)
    (A0 : List (List (List (BitVec 16)))) (hA : IsMat 3 A0) :
    ∃ polys A, genMatrixCalls seed gs = .ok polys ∧ GenMatrix .saber A0 seed 0 = .ok A ∧ polys.length = 9 ∧
      ∀ i j : Fin 3, polys.getD (3 * i.val + j.val) [] = (A.getD i.val []).getD j.val [] := by
  have H : Ok (genMatrixCalls seed gs) fun polys => polys = (List.range 9).map fun k =>
      ofP (unpack 13 ((Keccak.shake128 seed 3744).drop (416 * k))) := by
    unfold genMatrixCalls
    refine Ok.bind (loop_inv (fun k (st : List (List (BitVec 16)) × List (BitVec 16) × M0.GS) =>
      (st.1 = (List.range k).map fun k => ofP (unpack 13 ((Keccak.shake128 seed 3744).drop (416 * k)))) ∧ st.2.1.length = 256 ∧
      M0.MState seed k st.2.2) ⟨rfl, List.length_replicate, M0.MState_zero hg seed⟩ ?_) ?_
    · rintro k ⟨out, temp, g⟩ hk ⟨h1, h2, h3⟩
      simp only at h1 h2 h3 ⊢
      obtain ⟨⟨a, g'⟩, e1, ha, hg'⟩ := M0.GenMatrix_call seed hs k (k / 3 + k % 3) (by omega) (by omega) temp h2 g h3
      simp only at ha hg'
      rw [e1, ok_bind]
      refine Ok.pure ⟨?_, by simp only [ha]; exact length_ofP _, hg'⟩
      simp only
      rw [h1, ha, List.range_succ, List.map_append]
      rfl
    · rintro ⟨out, _, _⟩ ⟨h1, _⟩
      exact Ok.pure h1
  obtain ⟨polys, h1, rfl⟩ := H
  refine ⟨_, _, h1, GenMatrix_spec .saber A0 hA seed 0 (by omega), by simp, ?_⟩
  intro i j
  rw [List.drop_zero, List.take_of_length_le (by omega), getD_map_range _ _ _ _ (by omega)]
  have e : ((ofM (genMatrix PSet.saber.spec seed)).getD i.val []).getD j.val [] = ofP (genMatrix saber seed i j) := by
    have : ∀ A : Fin 3 → Fin 3 → Poly, ((ofM A).getD i.val []).getD j.val [] = ofP (A i j) := by
      intro A
      unfold ofM ofV
      simp
    exact this (genMatrix saber seed)
  rw [e, M0.genMatrix_eq]
  rfl

/-- C41: the secret vector of the port is that of the reference implementation modulo `q`. -/
theorem C41_gen_secret (seed : List Byte) (off : Nat) (hs : off + 32 ≤ seed.length) (v v' : List (List (BitVec 16)))
    (hv : IsVec 3 v) (hv' : IsVec 3 v') :
    ∃ s s', M0.GenSecret v seed off = .ok s ∧ GenSecret .saber v' seed off = .ok s' ∧
      ∀ i : Fin 3, ∀ k, toV 3 s i k = toV 3 s' i k % 8192 := by
  refine ⟨_, _, M0.GenSecret_secV v hv seed off hs, GenSecret_spec .saber v' hv' seed off hs, fun i k => ?_⟩
  have h1 : toV 3 (ofV (M0.secV ((seed.drop off).take 32))) i k = _ := congrFun (toV_ofV _ i) k
  have h2 : toV 3 (ofV (genSecret PSet.saber.spec ((seed.drop off).take 32))) i k = toP (ofP (genSecret saber ((seed.drop off).take 32) i)) k :=
    congrFun (toV_ofV (L := 3) (genSecret saber ((seed.drop off).take 32)) i) k
  rw [h1, h2, toP_ofP, toP_ofP]
  unfold M0.secV
  omega

/-- The hypotheses of C41 are met. -/
example : IsVec 3 (List.replicate 3 (List.replicate 256 1)) ∧ IsMat 3 (List.replicate 3 (List.replicate 3 (List.replicate 256 1))) ∧
    (⟨List.replicate 280 5, List.replicate 25 7, 3, 4⟩ : M0.GS).buf.length = 280 := by
  have h : IsVec 3 (List.replicate 3 (List.replicate 256 (1 : BitVec 16))) :=
    ⟨List.length_replicate, fun i hi => by rw [List.getD_replicate _ hi, List.length_replicate]⟩
  exact ⟨h, ⟨List.length_replicate, fun i hi => by rw [List.getD_replicate _ hi]; exact h⟩, List.length_replicate⟩

/-! ### Key generation -/

/-- C46: with wrapping arithmetic, key generation of the port computes the key pair of the specification; the function to which the calls of
`KeccakF1600_StatePermute` are linked is arbitrary, and is the one that the hash functions of the specification use. -/
theorem C46_keypair [Keccak.Permutation] [StatePermute] [Permutes] {σ : Type} (rb : RandomBytes σ) (st st1 st2 st3 : σ) (r1 r2 z : List Byte)
    (h1 : Delivers rb 32 st r1 st1) (h2 : Delivers rb 32 st1 r2 st2) (h3 : Delivers rb 32 st2 z st3)
    (gs : M0.GS) (hg : gs.buf.length = 280 ∧ gs.s.length = 25) (pk sk : List Byte) (hpk : pk.length = 992) (hsk : sk.length = 2304) :
    M0.crypto_kem_keypair M0.macWrap rb gs pk sk st = .ok (0, kemPk saber r1 r2, kemSk saber r1 r2 z, st3) :=
  M0.eq_of_Ok (M0.crypto_kem_keypair_m0 M0.macWrap_spec rb st st1 st2 st3 r1 r2 z h1 h2 h3 gs hg pk sk hpk hsk).to_ok

/-- C46: linked with a function that computes Keccak-f[1600], key generation of the port computes the key pair of the reference implementation.
(The Makefile links a function that does not: C53.) -/
theorem C46_equals_reference [StatePermute] [@Permutes Keccak.standard _] {σ : Type} (rb : RandomBytes σ) (st st1 st2 st3 : σ) (r1 r2 z : List Byte)
    (h1 : Delivers rb 32 st r1 st1) (h2 : Delivers rb 32 st1 r2 st2) (h3 : Delivers rb 32 st2 z st3)
    (gs : M0.GS) (hg : gs.buf.length = 280 ∧ gs.s.length = 25) (pk sk : List Byte) (hpk : pk.length = 992) (hsk : sk.length = 2304) :
    M0.crypto_kem_keypair M0.macWrap rb gs pk sk st = crypto_kem_keypair .saber rb pk sk st :=
  (C46_keypair rb st st1 st2 st3 r1 r2 z h1 h2 h3 gs hg pk sk hpk hsk).trans
    (crypto_kem_keypair_ok .saber rb st st1 st2 st3 r1 r2 z h1 h2 h3 pk sk hpk hsk).symm

/-- C46: by the letter of the C standard, key generation computes the key pair of the specification or overflows `int`; nothing
else can go wrong. -/
theorem C46_keypair_strict [Keccak.Permutation] [StatePermute] [Permutes] {σ : Type} (rb : RandomBytes σ) (st st1 st2 st3 : σ) (r1 r2 z : List Byte)
    (h1 : Delivers rb 32 st r1 st1) (h2 : Delivers rb 32 st1 r2 st2) (h3 : Delivers rb 32 st2 z st3)
    (gs : M0.GS) (hg : gs.buf.length = 280 ∧ gs.s.length = 25) (pk sk : List Byte) (hpk : pk.length = 992) (hsk : sk.length = 2304) :
    M0.crypto_kem_keypair M0.macC rb gs pk sk st = .ok (0, kemPk saber r1 r2, kemSk saber r1 r2 z, st3) ∨
    M0.crypto_kem_keypair M0.macC rb gs pk sk st = .error .signedOverflow := by
  rcases M0.crypto_kem_keypair_m0 M0.macC_spec rb st st1 st2 st3 r1 r2 z h1 h2 h3 gs hg pk sk hpk hsk with ⟨o, e, rfl⟩ | ⟨e, h, rfl⟩
  · exact .inl e
  · exact .inr h

/-! ### Encapsulation -/

/-- C47: with wrapping arithmetic, encapsulation of the port computes the ciphertext and key of `Spec/M0.lean`, for every public key. -/
theorem C47_enc [Keccak.Permutation] [StatePermute] [Permutes] {σ : Type} (rb : RandomBytes σ) (st st1 : σ) (m0 : List Byte) (h1 : Delivers rb 32 st m0 st1)
    (gs : M0.GS) (hg : gs.buf.length = 280 ∧ gs.s.length = 25) (c k pk : List Byte) (hc : c.length = 1088) (hk : k.length = 32)
    (hpk : pk.length = 992) :
    M0.crypto_kem_enc M0.macWrap rb gs c k pk st = .ok (0, m0EncapsC m0 pk, m0EncapsK m0 pk, st1) :=
  M0.eq_of_Ok (M0.crypto_kem_enc_m0 M0.macWrap_spec rb st st1 m0 h1 gs hg c k pk hc hk hpk).to_ok

/-- C47: by the letter of the C standard, encapsulation computes the same or overflows `int`. -/
theorem C47_enc_strict [Keccak.Permutation] [StatePermute] [Permutes] {σ : Type} (rb : RandomBytes σ) (st st1 : σ) (m0 : List Byte) (h1 : Delivers rb 32 st m0 st1)
    (gs : M0.GS) (hg : gs.buf.length = 280 ∧ gs.s.length = 25) (c k pk : List Byte) (hc : c.length = 1088) (hk : k.length = 32)
    (hpk : pk.length = 992) :
    M0.crypto_kem_enc M0.macC rb gs c k pk st = .ok (0, m0EncapsC m0 pk, m0EncapsK m0 pk, st1) ∨
    M0.crypto_kem_enc M0.macC rb gs c k pk st = .error .signedOverflow := by
  rcases M0.crypto_kem_enc_m0 M0.macC_spec rb st st1 m0 h1 gs hg c k pk hc hk hpk with ⟨o, e, rfl⟩ | ⟨e, h, rfl⟩
  · exact .inl e
  · exact .inr h

/-- C47: for the same message, coins and public key, the ciphertext of the port equals that of the reference implementation if and
only if no coefficient of `v' = <b, s'>` is 60, 61, 62 or 63 modulo 64. -/
theorem C47_interoperable_iff (gs : M0.GS) (hg : gs.buf.length = 280 ∧ gs.s.length = 25) (m coins pk cb cb' : List Byte)
    (hm : m.length = 32) (hs : coins.length = 32) (hpk : pk.length = 992) (hc : cb.length = 1088) (hc' : cb'.length = 1088) :
    ∃ c c', M0.indcpa_kem_enc M0.macWrap gs m 0 coins 0 pk 0 cb = .ok c ∧ indcpa_kem_enc .saber m 0 coins 0 pk 0 cb' = .ok c' ∧
      c.take 960 = c'.take 960 ∧
      (c = c' ↔ ∀ i, innerProd (unpackVec 10 3 pk) (genSecret saber coins) i % 64 < 60) := by
  have e1 := M0.eq_of_Ok (M0.enc_m0 M0.macWrap_spec gs hg m 0 coins 0 pk 0 cb (by omega) (by omega) (by omega) hc).to_ok
  have e2 := indcpa_enc_ok .saber m 0 coins 0 pk 0 cb' (by omega) (by omega) (by show 0 + 992 ≤ _; omega) hc'
  rw [List.drop_zero, List.drop_zero, List.drop_zero, List.take_of_length_le (by omega), List.take_of_length_le (by omega),
    List.take_of_length_le (by omega)] at e1
  rw [List.drop_zero, List.drop_zero, List.drop_zero, List.take_of_length_le (by omega), List.take_of_length_le (by omega),
    List.take_of_length_le (by show _ ≤ 992; omega)] at e2
  refine ⟨_, _, e1, e2, ?_, M0.enc_eq_iff m coins pk⟩
  unfold m0PkeEnc pkeEnc
  dsimp only
  rw [List.take_append_of_le_length (by rw [length_packVec]), List.take_append_of_le_length (by rw [length_packVec]; exact le_refl 960)]
  rfl

/-- C47: there are inputs for which the ciphertexts are equal (all-zero public vector). -/
example (coins : List Byte) : ∀ i, innerProd (unpackVec 10 3 (packVec 10 (fun _ : Fin 3 => (fun _ => 0 : Poly)) ++ List.replicate 32 0))
    (genSecret saber coins) i % 64 < 60 := by
  intro i
  have e : ∀ s : PVec 3, innerProd (unpackVec 10 3 (packVec 10 (fun _ : Fin 3 => (fun _ => 0 : Poly)) ++ List.replicate 32 0)) s i = 0 := by
    intro s
    unfold innerProd negMul
    simp only [unpackVec_packVec]
    simp
  exact lt_of_eq_of_lt (congrArg (· % 64) (e (genSecret saber coins))) (by norm_num)

/-- C47: with the coins `0 ... 0` and a public key whose first polynomial is the constant 1023, the ciphertexts of the port and of the
reference implementation differ, for every message. -/
theorem C47_not_interoperable (gs : M0.GS) (hg : gs.buf.length = 280 ∧ gs.s.length = 25) (m cb : List Byte) (hm : m.length = 32)
    (hc : cb.length = 1088) :
    ∃ coins pk c c', coins.length = 32 ∧ pk.length = 992 ∧ M0.indcpa_kem_enc M0.macWrap gs m 0 coins 0 pk 0 cb = .ok c ∧
      indcpa_kem_enc .saber m 0 coins 0 pk 0 cb = .ok c' ∧ c ≠ c' := by
  let b : PVec 3 := fun j i => if j = 0 ∧ i = 0 then 1023 else 0
  have lpk : (packVec 10 b ++ List.replicate 32 (0 : Byte)).length = 992 := by
    rw [List.length_append, length_packVec, List.length_replicate]
  obtain ⟨c, c', h1, h2, _, h4⟩ := C47_interoperable_iff gs hg m (List.replicate 32 0) (packVec 10 b ++ List.replicate 32 0) cb cb hm
    List.length_replicate lpk hc hc
  refine ⟨_, _, c, c', List.length_replicate, lpk, h1, h2, fun h => ?_⟩
  have h5 := h4.1 h 1
  -- the second coefficient of the secret polynomial is 1
  have hs : genSecret saber (List.replicate 32 0) (0 : Fin 3) 1 = 1 := by
    have e := shake128_ok (List.replicate 8 0) 0 8 (List.replicate 32 0) 0 32 (by rw [List.length_replicate]) (by rw [List.length_replicate])
    rw [writeAt_full _ _ (by rw [length_shake128, List.length_replicate]), List.drop_zero, List.take_of_length_le (by rw [List.length_replicate])] at e
    have e2 : (shake128 (List.replicate 8 0) 0 8 (List.replicate 32 0) 0 32).toOption =
        some [0x24, 0xa7, 0xca, 0x4b, 0x75, 0xe3, 0x89, 0x8d] := by decide +kernel
    rw [e] at e2
    have e3 : Keccak.shake128 (List.replicate 32 0) 8 = [0x24, 0xa7, 0xca, 0x4b, 0x75, 0xe3, 0x89, 0x8d] := Option.some.inj e2
    rw [shake128_prefix _ 8 768 (by omega)] at e3
    have e4 : (Keccak.shake128 (List.replicate 32 0) 768).getD 1 0 = 0xa7 := by
      rw [← getD_take _ 8 1 0 (by omega), e3]; rfl
    show centredBinomial 8 ((Keccak.shake128 (List.replicate 32 0) 768).drop 0) 1 = 1
    rw [List.drop_zero]
    generalize Keccak.shake128 (List.replicate 32 0) 768 = buf at e4
    have hb : ∀ j, j < 8 → bitAt buf (8 * (1 : Fin 256).val + j) = (0xa7 : Byte).getLsbD j := by
      intro j hj
      unfold bitAt
      rw [show (8 * (1 : Fin 256).val + j) / 8 = 1 by show (8 * 1 + j) / 8 = 1; omega,
        show (8 * (1 : Fin 256).val + j) % 8 = j by show (8 * 1 + j) % 8 = j; omega, e4]
    have e5 : ∀ o, o ≤ 4 → hammingWeight 4 (fun j => bitAt buf (8 * (1 : Fin 256).val + o + j)) =
        hammingWeight 4 (fun j => (0xa7 : Byte).getLsbD (o + j)) := by
      intro o ho
      unfold hammingWeight
      refine congrArg _ (List.map_congr_left fun j hj => ?_)
      dsimp only
      rw [Nat.add_assoc, hb _ (by have := List.mem_range.1 hj; omega)]
    unfold centredBinomial
    have e6 := e5 0 (by omega)
    have e7 := e5 4 (by omega)
    rw [Nat.add_zero] at e6
    rw [show 8 / 2 = 4 from rfl, e6, e7]
    decide
  have hv : innerProd (unpackVec 10 3 (packVec 10 b ++ List.replicate 32 0)) (genSecret saber (List.replicate 32 0)) 1 % 64 = 63 := by
    have hb : unpackVec 10 3 (packVec 10 b ++ List.replicate 32 0) = b := by
      funext j i
      rw [unpackVec_packVec]
      simp only [b]; split <;> rfl
    have e : ∀ s : PVec 3, innerProd b s 1 = 1023 * s 0 1 := by
      intro s
      unfold innerProd negMul
      rw [Fin.sum_univ_three]
      simp only [b]
      rw [Finset.sum_eq_single 0 (fun i _ hi => by simp [hi]) (by simp)]
      simp
    rw [hb]
    refine (congrArg (· % 64) (e (genSecret saber (List.replicate 32 0)))).trans ?_
    exact (congrArg (fun x => 1023 * x % 64) hs).trans (by norm_num)
  omega

/-- C47: decryption with a sufficient buffer (512 bytes) returns the message, one bit per 16-bit word: word `i` is bit `i` of the
message if and only if the noise of the exchange is in range at coefficient `i`. -/
theorem C47_decrypt [Keccak.Permutation] [StatePermute] [Permutes] {σ : Type} (rb : RandomBytes σ) (st st1 st2 : σ) (r1 r2 : List Byte)
    (h1 : Delivers rb 32 st r1 st1) (h2 : Delivers rb 32 st1 r2 st2) (gs : M0.GS) (hg : gs.buf.length = 280 ∧ gs.s.length = 25)
    (pkb skb cb mb : List Byte) (hpk : pkb.length = 992) (hsk : skb.length = 1248) (hc : cb.length = 1088)
    (hmb : mb.length = 512) (m coins : List Byte) (hml : m.length = 32) (hcl : coins.length = 32) :
    ∃ pk sk c w, M0.indcpa_kem_keypair M0.macWrap rb gs pkb skb st = .ok (pk, sk, st2) ∧
      M0.indcpa_kem_enc M0.macWrap gs m 0 coins 0 pk 0 cb = .ok c ∧ M0.indcpa_kem_dec M0.macWrap sk c mb = .ok w ∧ w.length = 512 ∧
      ∀ i : Fin 256, w.getD (2 * i.val + 1) 0 = 0 ∧ (w.getD (2 * i.val) 0 = 0 ∨ w.getD (2 * i.val) 0 = 1) ∧
        (w.getD (2 * i.val) 0 = (if bitAt m i.val then 1 else 0) ↔
          NoiseOk (m0Noise (genMatrix saber (Keccak.shake128 r1 32)) (genSecret saber r2) (genSecret saber coins)) i) := by
  have lpk : (pkeKeyGenPk saber (Keccak.shake128 r1 32) r2).length = 992 := by
    rw [length_pkeKeyGenPk, length_shake128]; rfl
  have lsk : (pkeKeyGenSk saber r2).length = 1248 := length_pkeKeyGenSk _ _
  have e0 := M0.eq_of_Ok (M0.keypair_m0 M0.macWrap_spec rb st st1 st2 r1 r2 h1 h2 gs hg pkb skb hpk (by omega)).to_ok
  rw [writeAt_full _ _ (by omega)] at e0
  have e1 := M0.eq_of_Ok (M0.enc_m0 M0.macWrap_spec gs hg m 0 coins 0 (pkeKeyGenPk saber (Keccak.shake128 r1 32) r2) 0 cb (by omega)
    (by omega) (by omega) hc).to_ok
  rw [List.drop_zero, List.drop_zero, List.drop_zero, List.take_of_length_le (by omega), List.take_of_length_le (by omega),
    List.take_of_length_le (by omega)] at e1
  have e2 := M0.eq_of_Ok ((M0.dec_m0 M0.macWrap_spec (pkeKeyGenSk saber r2)
    (m0PkeEnc m coins (pkeKeyGenPk saber (Keccak.shake128 r1 32) r2)) mb (by omega) (by rw [M0.length_m0PkeEnc])).1 (by omega)).to_ok
  have lw : ∀ p, (m0Words p).length = 512 := by
    intro p
    unfold m0Words
    rw [List.length_flatMap]
    have : ∀ k ∈ List.finRange 256, [BitVec.ofInt 8 (p k), (0 : Byte)].length = 2 := fun _ _ => rfl
    rw [List.map_congr_left this, List.map_const', List.sum_replicate_nat, List.length_finRange]
  rw [writeAt_full _ _ (by rw [lw, hmb])] at e2
  refine ⟨_, _, _, _, e0, e1, e2, lw _, ?_⟩
  intro i
  have hw : ∀ (p : Poly) (b : Nat), b < 2 → (m0Words p).getD (2 * i.val + b) 0 = [BitVec.ofInt 8 (p i), 0].getD b 0 := by
    intro p b hb
    have e : m0Words p = (List.range 256).flatMap fun n => [BitVec.ofInt 8 (p (Fin.ofNat 256 n)), 0] := by
      unfold m0Words
      rw [← List.map_coe_finRange_eq_range, List.flatMap_map, List.flatMap_def, List.flatMap_def]
      refine congrArg List.flatten (List.map_congr_left fun k _ => ?_)
      have : Fin.ofNat 256 k.val = k := Fin.ext (Nat.mod_eq_of_lt k.isLt)
      rw [this]
    rw [e, getD_flatMap_range 2 (by omega) _ (fun _ => rfl) 0 256 _ (by omega), show (2 * i.val + b) / 2 = i.val by omega,
      show (2 * i.val + b) % 2 = b by omega]
    have : Fin.ofNat 256 i.val = i := Fin.ext (Nat.mod_eq_of_lt i.isLt)
    rw [this]
  have hw0 := fun p => hw p 0 (by omega)
  simp only [Nat.add_zero] at hw0
  rw [hw _ 1 (by omega), hw0, ← M0.m0_bit_iff (Keccak.shake128 r1 32) r2 m coins i]
  have hb : ∀ sk c, m0DecBits sk c i = 0 ∨ m0DecBits sk c i = 1 := by
    intro sk c
    unfold m0DecBits m0DecodeMsg
    omega
  have key : unpack 1 m i = ((bitAt m i.val).toNat : Int) := by
    unfold unpack
    rw [natOfBits_succ]
    simp [natOfBits]
  rw [key]
  refine ⟨rfl, ?_⟩
  rcases hb (pkeKeyGenSk saber r2) (m0PkeEnc m coins (pkeKeyGenPk saber (Keccak.shake128 r1 32) r2)) with h | h <;> rw [h] <;>
    cases bitAt m i.val <;> decide

/-! ### Random numbers and cSHAKE -/

/-- C48: if the hardware register delivers 16-bit values, 16 of the 32 bytes of every 32-byte request (the seeds of key generation and of
encapsulation) are zero: those at the positions 1, 3, ..., 29 and 30. -/
theorem C48_seed_half_zero (word : Nat → BitVec 32) (hw : ∀ i, (word i).toNat < 2 ^ 16) (x : List Byte) (off : Nat)
    (hx : off + 32 ≤ x.length) :
    ∃ x', M0.randombytes word x off 32 = .ok (x', 16) ∧ x'.length = x.length ∧
      ∀ j, j < 32 → (j % 2 = 1 ∧ j ≠ 31 ∨ j = 30) → x'.getD (off + j) 0 = 0 := by
  have hl : ((List.range 32).map (M0.prngByte word 32)).length = 32 := by simp
  refine ⟨_, M0.randombytes_m0 word x off 32 hx, length_writeAt _ _ _ (by omega), fun j hj h => ?_⟩
  rw [M0.getD_writeAt _ _ _ _ (by omega), if_pos ⟨by omega, by omega⟩, show off + j - off = j by omega, getD_map_range _ _ _ _ hj, M0.prngByte]
  rcases h with ⟨h1, h2⟩ | rfl
  · rw [if_pos (by omega), h1, M0.aschar_high _ (hw _)]; rfl
  · rw [if_neg (by omega), show 32 - 1 - 30 = 1 by omega, M0.aschar_high _ (hw _)]; rfl

/-- C48: the exact output of a request of `n` bytes and the number of words it consumes: the words follow each other, low half first, and
keep the low byte of each half; the bytes of the last, possibly incomplete, word come in reverse order. -/
theorem C48_randombytes (word : Nat → BitVec 32) (x : List Byte) (off n : Nat) (hx : off + n ≤ x.length) :
    ∃ x', M0.randombytes word x off n = .ok (x', (n + 1) / 2) ∧ x'.take off = x.take off ∧ x'.drop (off + n) = x.drop (off + n) ∧
      ∀ j, j < n → x'.getD (off + j) 0 =
        if j < 2 * ((n - 1) / 2) then BitVec.ofNat 8 ((word (j / 2)).toNat / 2 ^ (16 * (j % 2)))
        else BitVec.ofNat 8 ((word ((n - 1) / 2)).toNat / 2 ^ (16 * (n - 1 - j))) := by
  have hl : ((List.range n).map (M0.prngByte word n)).length = n := by simp
  refine ⟨_, M0.randombytes_m0 word x off n hx, ?_, ?_, fun j hj => ?_⟩
  · unfold writeAt
    rw [List.append_assoc, List.take_append_of_le_length (by simp; omega), List.take_take, Nat.min_self]
  · unfold writeAt
    rw [hl, List.drop_left' (by simp; omega)]
  have hc : ∀ (w : BitVec 32) b, (M0.aschar w b).setWidth 8 = BitVec.ofNat 8 (w.toNat / 2 ^ (16 * b)) := by
    intro w b
    apply BitVec.eq_of_toNat_eq
    unfold M0.aschar
    simp [Nat.shiftRight_eq_div_pow]
  rw [M0.getD_writeAt _ _ _ _ (by omega), if_pos ⟨by omega, by omega⟩, show off + j - off = j by omega, getD_map_range _ _ _ _ hj, M0.prngByte, hc, hc]

/-- The hypothesis of C48 is met by a register that delivers different 16-bit values. -/
example : (∀ i, (BitVec.ofNat 32 (i % 65536) : BitVec 32).toNat < 2 ^ 16) ∧
    (M0.randombytes (fun i => BitVec.ofNat 32 (257 * (i + 1))) (List.replicate 4 9) 0 4).toOption = some ([1, 0, 0, 2], 2) := by
  refine ⟨fun i => ?_, by decide +kernel⟩
  rw [BitVec.toNat_ofNat]
  omega

/-- C49: `cshake128_simple` and `cshake256_simple` of the port ignore the customisation value: for every `cstm` the output is the same
sponge over the input and the suffix `00`. -/
theorem C49_cshake_ignores_customisation [Keccak.Permutation] [StatePermute] [Permutes] (output : List Byte) (outOff outlen : Nat) (cstm : BitVec 16) (input : List Byte) (inOff inlen : Nat)
    (ho : outOff + outlen ≤ output.length) (hi : inOff + inlen ≤ input.length) :
    M0.cshake128_simple output outOff outlen cstm input inOff inlen = .ok (writeAt output outOff (Keccak.bytesOfBits
      (Keccak.sponge (8 * 168) (Keccak.bitsOfBytes ((input.drop inOff).take inlen) ++ [false, false]) (8 * outlen)))) ∧
    M0.cshake256_simple output outOff outlen cstm input inOff inlen = .ok (writeAt output outOff (Keccak.bytesOfBits
      (Keccak.sponge (8 * 136) (Keccak.bitsOfBytes ((input.drop inOff).take inlen) ++ [false, false]) (8 * outlen)))) :=
  ⟨M0.cshake128_m0 _ _ _ _ _ _ _ ho hi, M0.cshake256_m0 _ _ _ _ _ _ _ ho hi⟩

end Saber.Props
