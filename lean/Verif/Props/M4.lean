import Verif.Proof.M4.Kem
import Verif.Proof.M4.Contract
import Verif.Props.Kem
/-!
# Properties of the Cortex-M4 implementation: C36, C37, C38, C39

`lib` is the hash library, `toom` the multiplication routine, `cs` says whether `SABER_COMPRESS_SECRETKEY` is defined.  The theorems hold
for every library and every routine that meet their contracts (`Spec/M4Lib.lean`).
-/
namespace Saber.Props
open Spec

/-- The secret key of the specification: 13 bits per coefficient, or 4 bits with `SABER_COMPRESS_SECRETKEY`. -/
def m4Sk (P : PSet) (cs : Bool) (r1 r2 z : List Byte) : List Byte :=
  if cs then kemSkC (params P) r1 r2 z else kemSk (params P) r1 r2 z

/-- C36: key generation computes the key pair of the specification. -/
theorem C36_keypair_spec {σ : Type} (P : PSet) (cs : Bool) (lib : M4.Fips202Lib) (hl : lib.Correct) (toom : M4.Toom) (ht : toom.Correct)
    (rb : RandomBytes σ) (st st1 st2 st3 : σ) (r1 r2 z : List Byte)
    (h1 : Delivers rb 32 st r1 st1) (h2 : Delivers rb 32 st1 r2 st2) (h3 : Delivers rb 32 st2 z st3)
    (pk sk : List Byte) (hpk : pk.length = P.PUBLICKEYBYTES) (hsk : sk.length = M4.SECRETKEYBYTES P cs) :
    M4.crypto_kem_keypair P lib toom cs rb pk sk st = .ok (0, kemPk (params P) r1 r2, m4Sk P cs r1 r2 z, st3) := by
  obtain ⟨St, hl⟩ := hl
  rw [m4Sk, params_eq]
  exact M4.crypto_kem_keypair_ok hl ht.ok rb st st1 st2 st3 r1 r2 z h1 h2 h3 pk sk hpk hsk

/-- C36: encapsulation computes the ciphertext and key of the specification, for every public key. -/
theorem C36_enc_spec {σ : Type} (P : PSet) (cs : Bool) (lib : M4.Fips202Lib) (hl : lib.Correct) (toom : M4.Toom) (ht : toom.Correct)
    (rb : RandomBytes σ) (st st1 : σ) (m0 : List Byte) (h : Delivers rb 32 st m0 st1)
    (c k pk : List Byte) (hc : c.length = P.BYTES_CCA_DEC) (hk : k.length = 32) (hpk : pk.length = P.PUBLICKEYBYTES) :
    M4.crypto_kem_enc P lib toom cs rb c k pk st = .ok (0, encapsC (params P) m0 pk, encapsK (params P) m0 pk, st1) := by
  obtain ⟨St, hl⟩ := hl
  rw [params_eq]
  exact M4.crypto_kem_enc_ok hl ht.ok rb st st1 m0 h c k pk hc hk hpk

/-- C36: decapsulation computes the key of the specification, for every secret key and every ciphertext.  A compressed secret key
counts as the secret key with the same coefficients in 13 bits. -/
theorem C36_dec_spec (P : PSet) (cs : Bool) (lib : M4.Fips202Lib) (hl : lib.Correct) (toom : M4.Toom) (ht : toom.Correct)
    (k c sk : List Byte) (hk : k.length = 32) (hc : c.length = P.BYTES_CCA_DEC) (hsk : sk.length = M4.SECRETKEYBYTES P cs) :
    M4.crypto_kem_dec P lib toom cs k c sk = .ok (0, decaps (params P) (if cs then expandSk (params P) sk else sk) c) := by
  obtain ⟨St, hl⟩ := hl
  rw [params_eq]
  exact M4.crypto_kem_dec_ok hl ht.ok k c sk hk hc hsk

/-- C36: without `SABER_COMPRESS_SECRETKEY` the three functions return the same values, write the same bytes and consume the random bytes
in the same way as the functions of the reference implementation. -/
theorem C36_same_as_reference {σ : Type} (P : PSet) (lib : M4.Fips202Lib) (hl : lib.Correct) (toom : M4.Toom) (ht : toom.Correct)
    (rb : RandomBytes σ) (hrb : ∀ st, ∃ r st', Delivers rb 32 st r st') (st : σ)
    (pk sk c k : List Byte) (hpk : pk.length = P.PUBLICKEYBYTES) (hsk : sk.length = P.SECRETKEYBYTES) (hc : c.length = P.BYTES_CCA_DEC)
    (hk : k.length = 32) :
    M4.crypto_kem_keypair P lib toom false rb pk sk st = crypto_kem_keypair P rb pk sk st ∧
    M4.crypto_kem_enc P lib toom false rb c k pk st = crypto_kem_enc P rb c k pk st ∧
    M4.crypto_kem_dec P lib toom false k c sk = crypto_kem_dec P k c sk := by
  obtain ⟨r1, st1, h1⟩ := hrb st
  obtain ⟨r2, st2, h2⟩ := hrb st1
  obtain ⟨z, st3, h3⟩ := hrb st2
  refine ⟨?_, ?_, ?_⟩
  · rw [C36_keypair_spec P false lib hl toom ht rb st st1 st2 st3 r1 r2 z h1 h2 h3 pk sk hpk hsk,
      C01_keypair_spec P rb st st1 st2 st3 r1 r2 z h1 h2 h3 pk sk hpk hsk]
    rfl
  · rw [C36_enc_spec P false lib hl toom ht rb st st1 r1 h1 c k pk hc hk hpk, C02_enc_spec P rb st st1 r1 h1 c k pk hc hk hpk]
  · rw [C36_dec_spec P false lib hl toom ht k c sk hk hc hsk, C03_dec_spec P k c sk hk hc hsk]
    rfl

/-- C37: the result of the fused re-encryption and comparison is 0 if the ciphertext is the encryption of the message with the given coins
under the given public key, and 1 otherwise. -/
theorem C37_enc_cmp (P : PSet) (cs : Bool) (lib : M4.Fips202Lib) (hl : lib.Correct) (toom : M4.Toom) (ht : toom.Correct)
    (m coins pk c : List Byte) (hm : m.length = 32) (hs : coins.length = 32) (hpk : pk.length = P.INDCPA_PUBLICKEYBYTES)
    (hc : c.length = P.BYTES_CCA_DEC) :
    M4.indcpa_kem_enc_cmp P lib toom cs m 0 coins 0 pk 0 c = .ok (if c = pkeEnc (params P) m coins pk then 0 else 1) := by
  obtain ⟨St, hl⟩ := hl
  rw [params_eq, M4.indcpa_enc_cmp_ok hl ht.ok m 0 coins 0 pk 0 c (by omega) (by omega) (by omega) (by omega)]
  simp only [List.drop_zero]
  rw [List.take_of_length_le (show c.length ≤ _ by omega), List.take_of_length_le (show m.length ≤ 32 by omega),
    List.take_of_length_le (show coins.length ≤ 32 by omega), List.take_of_length_le (show pk.length ≤ _ by omega)]

/-- C37: the comparison accepts exactly the ciphertext that encryption with the same arguments produces. -/
theorem C37_cmp_enc (P : PSet) (cs : Bool) (lib : M4.Fips202Lib) (hl : lib.Correct) (toom : M4.Toom) (ht : toom.Correct)
    (m coins pk c buf : List Byte) (hm : m.length = 32) (hs : coins.length = 32) (hpk : pk.length = P.INDCPA_PUBLICKEYBYTES)
    (hc : c.length = P.BYTES_CCA_DEC) (hb : buf.length = P.BYTES_CCA_DEC) :
    M4.indcpa_kem_enc_cmp P lib toom cs m 0 coins 0 pk 0 c = .ok 0 ↔ M4.indcpa_kem_enc P lib toom cs m 0 coins 0 pk 0 buf = .ok c := by
  rw [C37_enc_cmp P cs lib hl toom ht m coins pk c hm hs hpk hc]
  obtain ⟨St, hl⟩ := hl
  rw [params_eq, M4.indcpa_enc_ok hl ht.ok m 0 coins 0 pk 0 buf (by omega) (by omega) (by omega) (by omega)]
  simp only [List.drop_zero]
  rw [List.take_of_length_le (show m.length ≤ 32 by omega),
    List.take_of_length_le (show coins.length ≤ 32 by omega), List.take_of_length_le (show pk.length ≤ _ by omega)]
  by_cases h : c = pkeEnc P.spec m coins pk
  · rw [if_pos h, h]; simp
  · rw [if_neg h]
    constructor
    · intro h'
      exact absurd (Except.ok.inj h') (by decide)
    · intro h'
      exact absurd (Except.ok.inj h').symm h

/-- C38: packing with 4 bits per coefficient writes only the 128 bytes of the polynomial, and unpacking gives the same coefficients if and
only if all of them are in `[-8, 8)`. -/
theorem C38_lossless (bytes : List Byte) (off : Nat) (data out : List (BitVec 16)) (hd : data.length = 256) (ho : out.length = 256)
    (hb : off + 128 ≤ bytes.length) :
    ∃ bytes', M4.POLmu2BS true bytes off data = .ok bytes' ∧ bytes'.length = bytes.length ∧
      (∀ i, i < off ∨ off + 128 ≤ i → bytes'.getD i 0 = bytes.getD i 0) ∧
      (M4.BS2POLmu true bytes' off out = .ok data ↔ ∀ i, i < 256 → -8 ≤ (data.getD i 0).toInt ∧ (data.getD i 0).toInt < 8) := by
  have hp : (pack 4 (toP data)).length = 128 := length_pack _ _
  have hl := length_writeAt bytes off (pack 4 (toP data)) (by omega)
  refine ⟨_, M4.POLmu2BS_ok true bytes off data hd hb, hl, fun i hi => ?_, ?_⟩
  · show (writeAt bytes off (pack 4 (toP data))).getD i 0 = _
    rw [M0.getD_writeAt _ _ _ _ (by omega), if_neg (by omega)]
  · show M4.BS2POLmu_c (writeAt bytes off (pack 4 (toP data))) off out = .ok data ↔ _
    rw [M4.BS2POLmu_c_ok _ off out ho (by omega)]
    have hdrop : (writeAt bytes off (pack 4 (toP data))).drop off = pack 4 (toP data) ++ bytes.drop (off + 128) := by
      unfold writeAt
      rw [List.append_assoc, List.drop_append, List.drop_of_length_le (by simp), List.length_take, hp, List.nil_append, Nat.min_eq_left (by omega),
        Nat.sub_self, List.drop_zero]
    have key : ∀ i : Fin 256, (ofP fun i => signed4 (unpack 4 ((writeAt bytes off (pack 4 (toP data))).drop off) i)).getD i.val 0 =
        BitVec.ofInt 16 (signed4 ((data.getD i.val 0).toNat % 16)) := by
      intro i
      rw [ofP, getD_map_range _ _ _ _ i.isLt, hdrop]
      beta_reduce
      rw [unpack_pack]
      simp [toP]
    have val : ∀ x : BitVec 16, BitVec.ofInt 16 (signed4 ((x.toNat : Int) % 16)) = x ↔ -8 ≤ x.toInt ∧ x.toInt < 8 := by
      intro x
      rw [← BitVec.toInt_inj, BitVec.toInt_ofInt, BitVec.toInt_eq_toNat_cond]
      have := x.isLt
      unfold signed4 Int.bmod
      dsimp only
      split <;> split <;> split <;> omega
    rw [Except.ok.injEq]
    constructor
    · intro h i hi
      rw [← val, ← key ⟨i, hi⟩, h]
    · intro h
      refine ext_getD 0 (by rw [length_ofP, hd]) fun i hi => ?_
      rw [length_ofP] at hi
      rw [key ⟨i, hi⟩]
      exact (val _).mpr (h i hi)

/-- C38: with the same random bytes, decapsulation with the compressed and with the uncompressed secret key give the same shared secret,
for every ciphertext. -/
theorem C38_same_decapsulation {σ : Type} (P : PSet) (lib : M4.Fips202Lib) (hl : lib.Correct) (toom : M4.Toom) (ht : toom.Correct)
    (rb : RandomBytes σ) (hrb : ∀ st, ∃ r st', Delivers rb 32 st r st') (st : σ) (pk sk skC k c : List Byte)
    (hpk : pk.length = P.PUBLICKEYBYTES) (hsk : sk.length = M4.SECRETKEYBYTES P false) (hskC : skC.length = M4.SECRETKEYBYTES P true)
    (hk : k.length = 32) (hc : c.length = P.BYTES_CCA_DEC) :
    ∃ pk' sk' skC' key st', M4.crypto_kem_keypair P lib toom false rb pk sk st = .ok (0, pk', sk', st') ∧
      M4.crypto_kem_keypair P lib toom true rb pk skC st = .ok (0, pk', skC', st') ∧
      M4.crypto_kem_dec P lib toom false k c sk' = .ok (0, key) ∧ M4.crypto_kem_dec P lib toom true k c skC' = .ok (0, key) := by
  obtain ⟨r1, st1, h1⟩ := hrb st
  obtain ⟨r2, st2, h2⟩ := hrb st1
  obtain ⟨z, st3, h3⟩ := hrb st2
  have e1 := C36_keypair_spec P false lib hl toom ht rb st st1 st2 st3 r1 r2 z h1 h2 h3 pk sk hpk hsk
  have e2 := C36_keypair_spec P true lib hl toom ht rb st st1 st2 st3 r1 r2 z h1 h2 h3 pk skC hpk hskC
  have l1 : (m4Sk P false r1 r2 z).length = M4.SECRETKEYBYTES P false := by
    show (kemSk (params P) r1 r2 z).length = _
    unfold kemSk
    rw [List.length_append, List.length_append, List.length_append, length_pkeKeyGenSk, length_kemPk, length_sha3_256, h3.1, params_eq]; rfl
  have l2 : (m4Sk P true r1 r2 z).length = M4.SECRETKEYBYTES P true := by
    show (kemSkC (params P) r1 r2 z).length = _
    unfold kemSkC pkeKeyGenSkC
    rw [List.length_append, List.length_append, List.length_append, length_packVec, length_kemPk, length_sha3_256, h3.1, params_eq]; rfl
  refine ⟨_, _, _, _, _, e1, e2, C36_dec_spec P false lib hl toom ht k c _ hk hc l1, ?_⟩
  rw [C36_dec_spec P true lib hl toom ht k c _ hk hc l2]
  simp only [m4Sk, if_true, params_eq]
  rw [M4.expandSk_gen]
  rfl

/-- C39: with wrapping multiplication the striding Toom-Cook routine adds the product in `Z[X]/(X^256+1)` modulo `2^13` to the result,
for all operands, whatever the assembly routine leaves in its scratch memory. -/
theorem C39_wrap_correct (kara : M4.Kara) (hk : kara.Correct) : M4.Toom.Correct (M4.toom_cook_4way_striding .wrap kara) :=
  (M4.toom_striding_ok hk.ok).correct

/-- C39: with the arithmetic of the C standard the routine has undefined behaviour (signed overflow) already for the operands `X^3` and 1. -/
theorem C39_strict_overflow (kara : M4.Kara) (hk : kara.Correct) (res : List (BitVec 16)) :
    M4.toom_cook_4way_striding .strict kara ([0, 0, 0, 1] ++ List.replicate 252 0) ([1] ++ List.replicate 255 0) res =
      .error .signedOverflow := M4.toom_strict hk.ok res

/-- C36, C39: the contracts are met by the reference hash functions and by the striding multiplication. -/
example : M4.refLib.Correct ∧ M4.refKara.Correct ∧ M4.Toom.Correct (M4.toom_cook_4way_striding .wrap M4.refKara) :=
  ⟨M4.refLib_correct, M4.refKara_correct, M4.refToom_correct⟩

/-- C36: buffers of the right size and a generator that delivers. -/
example : ∃ st1 st2 st3 : List Byte × List Nat, ∃ r1 r2 z,
    Delivers tapeRng 32 ((List.range 96).map n8, []) r1 st1 ∧ Delivers tapeRng 32 st1 r2 st2 ∧ Delivers tapeRng 32 st2 z st3 ∧
    (List.replicate 992 (7 : Byte)).length = PSet.saber.PUBLICKEYBYTES ∧
    (List.replicate 1440 (7 : Byte)).length = M4.SECRETKEYBYTES .saber true ∧
    (List.replicate 2304 (7 : Byte)).length = M4.SECRETKEYBYTES .saber false := by
  refine ⟨_, _, _, _, _, _, tapeRng_delivers 32 _ _ (by simp), tapeRng_delivers 32 _ _ (by simp), tapeRng_delivers 32 _ _ (by simp), ?_, ?_, ?_⟩
    <;> rw [List.length_replicate] <;> decide +kernel

/-- C38: an array with all values of the sampler range. -/
example : ∀ i, i < 256 → -8 ≤ (((List.range 256).map fun i => BitVec.ofInt 16 ((i % 11 : Nat) - 5)).getD i 0).toInt ∧
    (((List.range 256).map fun i => BitVec.ofInt 16 ((i % 11 : Nat) - 5)).getD i 0).toInt < 8 := by
  decide +kernel

end Saber.Props
