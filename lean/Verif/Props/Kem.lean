import Verif.Proof.Correct
/-!
# Properties of the KEM: C01 to C08, C28 to C30

`Delivers rb n st r st'` says that the random number generator `rb`, asked for `n` bytes in state `st`, writes the bytes `r` to the
requested place, writes nothing else and goes to state `st'`.  All theorems hold for every generator and every delivered bytes.
-/
namespace Saber.Props
open Spec

/-- The specification's parameters of the three builds. -/
def params : PSet → Params
  | .light => lightSaber
  | .saber => Spec.saber
  | .fire => fireSaber

theorem params_eq (P : PSet) : params P = P.spec := by cases P <;> rfl

theorem params_eT (P : PSet) : (params P).eT = 3 ∨ (params P).eT = 4 ∨ (params P).eT = 6 := by cases P <;> decide

/-- C01: key generation computes the key pair of the specification. -/
theorem C01_keypair_spec {σ : Type} (P : PSet) (rb : RandomBytes σ) (st st1 st2 st3 : σ) (r1 r2 z : List Byte)
    (h1 : Delivers rb 32 st r1 st1) (h2 : Delivers rb 32 st1 r2 st2) (h3 : Delivers rb 32 st2 z st3)
    (pk sk : List Byte) (hpk : pk.length = P.PUBLICKEYBYTES) (hsk : sk.length = P.SECRETKEYBYTES) :
    crypto_kem_keypair P rb pk sk st = .ok (0, kemPk (params P) r1 r2, kemSk (params P) r1 r2 z, st3) := by
  rw [params_eq]
  exact crypto_kem_keypair_ok P rb st st1 st2 st3 r1 r2 z h1 h2 h3 pk sk hpk hsk

/-- C02: encapsulation computes the ciphertext and key of the specification, for every public key. -/
theorem C02_enc_spec {σ : Type} (P : PSet) (rb : RandomBytes σ) (st st1 : σ) (m0 : List Byte) (h : Delivers rb 32 st m0 st1)
    (c k pk : List Byte) (hc : c.length = P.BYTES_CCA_DEC) (hk : k.length = 32) (hpk : pk.length = P.PUBLICKEYBYTES) :
    crypto_kem_enc P rb c k pk st = .ok (0, encapsC (params P) m0 pk, encapsK (params P) m0 pk, st1) := by
  rw [params_eq]
  exact crypto_kem_enc_ok P rb st st1 m0 h c k pk hc hk hpk

/-- C03: decapsulation computes the key of the specification, for every secret key and every ciphertext. -/
theorem C03_dec_spec (P : PSet) (k c sk : List Byte) (hk : k.length = 32) (hc : c.length = P.BYTES_CCA_DEC)
    (hsk : sk.length = P.SECRETKEYBYTES) : crypto_kem_dec P k c sk = .ok (0, decaps (params P) sk c) := by
  rw [params_eq]
  exact crypto_kem_dec_ok P k c sk hk hc hsk

/-- A generator that reads 32-byte requests from a tape and logs the lengths of all requests. -/
def tapeRng : RandomBytes (List Byte × List Nat) := fun buf off n (tape, log) => do
  let buf ← memcpy buf off tape 0 n
  pure (buf, (tape.drop n, log ++ [n]))

theorem tapeRng_delivers (n : Nat) (tape : List Byte) (log : List Nat) (h : n ≤ tape.length) :
    Delivers tapeRng n (tape, log) (tape.take n) (tape.drop n, log ++ [n]) := by
  refine ⟨by simp [h], fun buf off hb => ?_⟩
  unfold tapeRng
  dsimp only
  rw [memcpy_ok _ _ _ _ _ (by omega) hb, ok_bind]
  rfl

/-- The hypotheses of C01, C02 and C03 are met. -/
example : ∃ st1 st2 st3 : List Byte × List Nat, ∃ r1 r2 z,
    Delivers tapeRng 32 ((List.range 96).map n8, []) r1 st1 ∧ Delivers tapeRng 32 st1 r2 st2 ∧ Delivers tapeRng 32 st2 z st3 ∧
    r1 = (List.range 32).map n8 ∧ z.getD 31 0 = 95 := by
  refine ⟨_, _, _, _, _, _, tapeRng_delivers 32 _ _ (by simp), tapeRng_delivers 32 _ _ (by simp), tapeRng_delivers 32 _ _ (by simp), ?_, ?_⟩
    <;> decide +kernel

/-- C04: none of the three functions has undefined behaviour, whatever the buffers contain.  (The result does not depend on the
content of uninitialised memory either: see C01, C02 and C03, whose right-hand sides do not mention it.) -/
theorem C04_no_UB {σ : Type} (P : PSet) (rb : RandomBytes σ) (hrb : ∀ st, ∃ r st', Delivers rb 32 st r st')
    (st : σ) (pk sk c k : List Byte) (hpk : pk.length = P.PUBLICKEYBYTES) (hsk : sk.length = P.SECRETKEYBYTES)
    (hc : c.length = P.BYTES_CCA_DEC) (hk : k.length = 32) :
    (∃ out, crypto_kem_keypair P rb pk sk st = .ok out) ∧ (∃ out, crypto_kem_enc P rb c k pk st = .ok out) ∧
      (∃ out, crypto_kem_dec P k c sk = .ok out) := by
  obtain ⟨r1, st1, h1⟩ := hrb st
  obtain ⟨r2, st2, h2⟩ := hrb st1
  obtain ⟨z, st3, h3⟩ := hrb st2
  exact ⟨⟨_, C01_keypair_spec P rb st st1 st2 st3 r1 r2 z h1 h2 h3 pk sk hpk hsk⟩, ⟨_, C02_enc_spec P rb st st1 r1 h1 c k pk hc hk hpk⟩,
    ⟨_, C03_dec_spec P k c sk hk hc hsk⟩⟩

/-- The hypothesis of C04 is met: a generator that counts. -/
example : ∀ st : Nat, ∃ r st', Delivers (fun buf off n st => do
    let buf ← memset buf off (n8 st) n
    pure (buf, st + 1)) 32 st r st' := fun st =>
  ⟨List.replicate 32 (n8 st), st + 1, by simp, fun buf off h => by dsimp only; rw [memset_ok _ _ _ _ h]; rfl⟩

/-- C05: key generation, encapsulation and decapsulation in sequence agree on the key if the noise of the exchange is in range. -/
theorem C05_agreement {σ : Type} (P : PSet) (rb : RandomBytes σ) (st st1 st2 st3 st4 : σ) (r1 r2 z m0 : List Byte)
    (h1 : Delivers rb 32 st r1 st1) (h2 : Delivers rb 32 st1 r2 st2) (h3 : Delivers rb 32 st2 z st3) (h4 : Delivers rb 32 st3 m0 st4)
    (pkb skb cb kb kb' : List Byte) (hpk : pkb.length = P.PUBLICKEYBYTES) (hsk : skb.length = P.SECRETKEYBYTES)
    (hc : cb.length = P.BYTES_CCA_DEC) (hk : kb.length = 32) (hk' : kb'.length = 32)
    (hnoise : ∀ i, NoiseOk (noise (params P).eT (genMatrix (params P) (Keccak.shake128 r1 32)) (genSecret (params P) r2)
      (genSecret (params P) ((Keccak.sha3_512 (Keccak.sha3_256 m0 ++ Keccak.sha3_256 (kemPk (params P) r1 r2))).drop 32))) i) :
    ∃ pk sk c key, crypto_kem_keypair P rb pkb skb st = .ok (0, pk, sk, st3) ∧
      crypto_kem_enc P rb cb kb pk st3 = .ok (0, c, key, st4) ∧ crypto_kem_dec P kb' c sk = .ok (0, key) := by
  have l1 : (kemPk (params P) r1 r2).length = P.PUBLICKEYBYTES := by rw [length_kemPk, params_eq]; rfl
  have l2 : (kemSk (params P) r1 r2 z).length = P.SECRETKEYBYTES := by
    unfold kemSk
    rw [List.length_append, List.length_append, List.length_append, length_pkeKeyGenSk, length_kemPk, length_sha3_256, h3.1, params_eq]; rfl
  have l3 : (encapsC (params P) m0 (kemPk (params P) r1 r2)).length = P.BYTES_CCA_DEC := by
    rw [encapsC, length_pkeEnc, CT_eq, params_eq]
  refine ⟨_, _, _, _, C01_keypair_spec P rb st st1 st2 st3 r1 r2 z h1 h2 h3 pkb skb hpk hsk,
    C02_enc_spec P rb st3 st4 m0 h4 cb kb _ hc hk l1, ?_⟩
  rw [C03_dec_spec P kb' _ _ hk' l3 l2, kem_agree (params P) (params_eT P) r1 r2 z m0 hnoise]

/-- C06: decryption of an honest encryption returns bit `i` of the message if and only if the `i`-th coefficient of the noise is in
`[-q/4, q/4)` modulo `q`; hence it returns the message if and only if all coefficients are. -/
theorem C06_failure_criterion {σ : Type} (P : PSet) (rb : RandomBytes σ) (st st1 st2 : σ) (r1 r2 : List Byte)
    (h1 : Delivers rb 32 st r1 st1) (h2 : Delivers rb 32 st1 r2 st2) (pkb skb cb mb : List Byte)
    (hpk : pkb.length = P.INDCPA_PUBLICKEYBYTES) (hsk : skb.length = P.INDCPA_SECRETKEYBYTES) (hc : cb.length = P.BYTES_CCA_DEC)
    (hm : mb.length = 32) (m coins : List Byte) (hml : m.length = 32) (hcl : coins.length = 32) :
    ∃ pk sk c m', indcpa_kem_keypair P rb pkb skb st = .ok (pk, sk, st2) ∧ indcpa_kem_enc P m 0 coins 0 pk 0 cb = .ok c ∧
      indcpa_kem_dec P sk c mb = .ok m' ∧ m'.length = 32 ∧
      (∀ i : Fin 256, bitAt m' i.val = bitAt m i.val ↔
        NoiseOk (noise (params P).eT (genMatrix (params P) (Keccak.shake128 r1 32)) (genSecret (params P) r2) (genSecret (params P) coins)) i) ∧
      (m' = m ↔ ∀ i,
        NoiseOk (noise (params P).eT (genMatrix (params P) (Keccak.shake128 r1 32)) (genSecret (params P) r2) (genSecret (params P) coins)) i) := by
  have k1 := PK_eq P
  have k2 := SK_eq P
  have k3 := CT_eq P
  have lpk : (pkeKeyGenPk P.spec (Keccak.shake128 r1 32) r2).length = P.INDCPA_PUBLICKEYBYTES := by
    rw [length_pkeKeyGenPk, length_shake128]; rfl
  have lsk : (pkeKeyGenSk P.spec r2).length = P.INDCPA_SECRETKEYBYTES := length_pkeKeyGenSk _ _
  have e1 := indcpa_enc_ok P m 0 coins 0 (pkeKeyGenPk P.spec (Keccak.shake128 r1 32) r2) 0 cb (by omega) (by omega) (by omega) hc
  rw [List.drop_zero, List.drop_zero, List.drop_zero, List.take_of_length_le (by omega), List.take_of_length_le (by omega),
    List.take_of_length_le (by omega)] at e1
  have lc : (pkeEnc P.spec m coins (pkeKeyGenPk P.spec (Keccak.shake128 r1 32) r2)).length = P.BYTES_CCA_DEC := by
    rw [length_pkeEnc, k3]
  have e2 := indcpa_dec_ok P (pkeKeyGenSk P.spec r2) (pkeEnc P.spec m coins (pkeKeyGenPk P.spec (Keccak.shake128 r1 32) r2)) mb (by omega) (by omega) (by omega)
  rw [List.take_of_length_le (by omega), List.take_of_length_le (by omega), writeAt_full _ _ (by rw [length_pkeDec]; exact hm)] at e2
  have e0 := indcpa_keypair_ok P rb st st1 st2 r1 r2 h1 h2 pkb skb hpk (by omega)
  rw [writeAt_full _ _ (by omega)] at e0
  rw [params_eq]
  have he := params_eT P
  rw [params_eq] at he
  refine ⟨_, _, _, _, e0, e1, e2, length_pkeDec _ _ _, ?_, pke_correct_iff P.spec he _ _ _ _ hml⟩
  intro i
  rw [← pke_bit_iff P.spec he (Keccak.shake128 r1 32) r2 m coins i]
  generalize pkeDec P.spec (pkeKeyGenSk P.spec r2) (pkeEnc P.spec m coins (pkeKeyGenPk P.spec (Keccak.shake128 r1 32) r2)) = m'
  have key : ∀ bs, unpack 1 bs i = ((bitAt bs i.val).toNat : Int) := by
    intro bs
    unfold unpack
    rw [natOfBits_succ]
    simp [natOfBits]
  rw [key, key]
  cases bitAt m' i.val <;> cases bitAt m i.val <;> decide

/-- A noise polynomial with coefficients on both sides of the boundary: `-2048` and `2047` are accepted, `2048` is not. -/
example : NoiseOk (fun _ => -2048) 0 ∧ NoiseOk (fun _ => 2047) 0 ∧ ¬ NoiseOk (fun _ => 2048) 0 ∧ ¬ NoiseOk (fun _ => -2049) 0 ∧
    NoiseOk (fun _ => 8192) 0 := by
  unfold NoiseOk; decide

/-- C07: if the ciphertext is not the re-encryption of the decrypted message, decapsulation returns 0 and the key
`SHA3-256(z || SHA3-256(c))`, with `z` the last 32 bytes of the secret key. -/
theorem C07_implicit_rejection (P : PSet) (k c sk : List Byte) (hk : k.length = 32) (hc : c.length = P.BYTES_CCA_DEC)
    (hsk : sk.length = P.SECRETKEYBYTES) (hrej : c ≠ reEncrypt (params P) sk c) :
    crypto_kem_dec P k c sk = .ok (0, Keccak.sha3_256 (sk.drop (sk.length - 32) ++ Keccak.sha3_256 c)) := by
  rw [C03_dec_spec P k c sk hk hc hsk, decaps, if_neg hrej]
  have : skZ (params P) sk = sk.drop (sk.length - 32) := by
    rw [params_eq, skZ, hsk, KSK_eq]
    show (sk.drop (P.L * 416 + (P.L * 320 + 32) + 32)).take 32 = _
    rw [List.take_of_length_le (by rw [List.length_drop, hsk, KSK_eq]; omega), Nat.add_sub_cancel]
  rw [this]
  rfl

/-- C07: the key of a rejected ciphertext depends on the secret key only through its last 32 bytes. -/
theorem C07_rejection_key_only_z (P : PSet) (k c sk sk' : List Byte) (hk : k.length = 32) (hc : c.length = P.BYTES_CCA_DEC)
    (hsk : sk.length = P.SECRETKEYBYTES) (hsk' : sk'.length = P.SECRETKEYBYTES) (hrej : c ≠ reEncrypt (params P) sk c)
    (hrej' : c ≠ reEncrypt (params P) sk' c) (hz : sk.drop (P.SECRETKEYBYTES - 32) = sk'.drop (P.SECRETKEYBYTES - 32)) :
    crypto_kem_dec P k c sk = crypto_kem_dec P k c sk' := by
  rw [C07_implicit_rejection P k c sk hk hc hsk hrej, C07_implicit_rejection P k c sk' hk hc hsk' hrej', hsk, hsk', hz]

/-- C08: the key is derived from the decrypted message exactly when the ciphertext is, byte for byte, the deterministic encryption
of that message under the public key stored in the secret key. -/
theorem C08_accept (P : PSet) (k c sk : List Byte) (hk : k.length = 32) (hc : c.length = P.BYTES_CCA_DEC)
    (hsk : sk.length = P.SECRETKEYBYTES) :
    let m := pkeDec (params P) (skCpa (params P) sk) c
    let kr := Keccak.sha3_512 (m ++ skHpk (params P) sk)
    crypto_kem_dec P k c sk =
      .ok (0, Keccak.sha3_256 ((if c = pkeEnc (params P) m (kr.drop 32) (skPk (params P) sk) then kr.take 32 else skZ (params P) sk)
        ++ Keccak.sha3_256 c)) := by
  dsimp only
  rw [C03_dec_spec P k c sk hk hc hsk, decaps]
  unfold reEncrypt decapsKr decapsM kemKr kemKey
  split <;> rfl

/-- C08: of all ciphertexts that decrypt to the same message, at most one is accepted. -/
theorem C08_accepted_unique (P : PSet) (sk c c' : List Byte)
    (hm : pkeDec (params P) (skCpa (params P) sk) c = pkeDec (params P) (skCpa (params P) sk) c')
    (hacc : c = reEncrypt (params P) sk c) (hne : c' ≠ c) : c' ≠ reEncrypt (params P) sk c' := by
  intro h
  apply hne
  have e : reEncrypt (params P) sk c' = reEncrypt (params P) sk c := by
    unfold reEncrypt decapsKr decapsM
    rw [hm]
  rw [h, e, ← hacc]

/-- C28: key generation asks three times for 32 bytes and uses them as seed of the matrix, seed of the secret and rejection secret
in this order; encapsulation asks once for 32 bytes.  (Decapsulation has no access to the generator.) -/
theorem C28_rng_consumption (P : PSet) (tape : List Byte) (log : List Nat) (pk sk c k pk' : List Byte)
    (hpk : pk.length = P.PUBLICKEYBYTES) (hsk : sk.length = P.SECRETKEYBYTES) (hc : c.length = P.BYTES_CCA_DEC) (hk : k.length = 32)
    (hpk' : pk'.length = P.PUBLICKEYBYTES) (ht : 96 ≤ tape.length) :
    crypto_kem_keypair P tapeRng pk sk (tape, log) =
      .ok (0, kemPk (params P) (tape.take 32) ((tape.drop 32).take 32),
        kemSk (params P) (tape.take 32) ((tape.drop 32).take 32) ((tape.drop 64).take 32), (tape.drop 96, log ++ [32, 32, 32])) ∧
    crypto_kem_enc P tapeRng c k pk' (tape, log) =
      .ok (0, encapsC (params P) (tape.take 32) pk', encapsK (params P) (tape.take 32) pk', (tape.drop 32, log ++ [32])) := by
  constructor
  · have := C01_keypair_spec P tapeRng _ _ _ _ _ _ _ (tapeRng_delivers 32 tape log (by omega))
      (tapeRng_delivers 32 (tape.drop 32) (log ++ [32]) (by simp; omega))
      (tapeRng_delivers 32 ((tape.drop 32).drop 32) (log ++ [32] ++ [32]) (by simp; omega)) pk sk hpk hsk
    rw [this]
    simp only [List.drop_drop, List.append_assoc, List.cons_append, List.nil_append]
  · exact C02_enc_spec P tapeRng _ _ _ (tapeRng_delivers 32 tape log (by omega)) c k pk' hc hk hpk'

/-- C29: the generator's raw output is hashed before anything derived from it leaves the module.  There are functions `pkOf`, `cOf` and
`keyOf` such that, for every generator, the public key is `pkOf (SHAKE128 r1) r2` and ends with `SHAKE128 r1`, and ciphertext and shared
secret are `cOf` and `keyOf` of `SHA3-256 m` and the public key. -/
theorem C29_raw_rng_not_published (P : PSet) :
    ∃ (pkOf : List Byte → List Byte → List Byte) (cOf keyOf : List Byte → List Byte → List Byte),
      (∀ {σ : Type} (rb : RandomBytes σ) (st st1 st2 st3 : σ) (r1 r2 z : List Byte), Delivers rb 32 st r1 st1 → Delivers rb 32 st1 r2 st2 →
        Delivers rb 32 st2 z st3 → ∀ pkb skb, pkb.length = P.PUBLICKEYBYTES → skb.length = P.SECRETKEYBYTES →
        ∃ sk, crypto_kem_keypair P rb pkb skb st = .ok (0, pkOf (Keccak.shake128 r1 32) r2, sk, st3) ∧
          (pkOf (Keccak.shake128 r1 32) r2).drop (P.PUBLICKEYBYTES - 32) = Keccak.shake128 r1 32) ∧
      (∀ {σ : Type} (rb : RandomBytes σ) (st st1 : σ) (m : List Byte), Delivers rb 32 st m st1 →
        ∀ cb kb pk, cb.length = P.BYTES_CCA_DEC → kb.length = 32 → pk.length = P.PUBLICKEYBYTES →
        crypto_kem_enc P rb cb kb pk st = .ok (0, cOf (Keccak.sha3_256 m) pk, keyOf (Keccak.sha3_256 m) pk, st1)) := by
  refine ⟨pkeKeyGenPk (params P), fun m pk => pkeEnc (params P) m ((kemKr m (Keccak.sha3_256 pk)).drop 32) pk,
    fun m pk => kemKey ((kemKr m (Keccak.sha3_256 pk)).take 32) (pkeEnc (params P) m ((kemKr m (Keccak.sha3_256 pk)).drop 32) pk), ?_, ?_⟩
  · intro σ rb st st1 st2 st3 r1 r2 z h1 h2 h3 pkb skb hpk hsk
    refine ⟨_, C01_keypair_spec P rb st st1 st2 st3 r1 r2 z h1 h2 h3 pkb skb hpk hsk, ?_⟩
    rw [pkeKeyGenPk, List.drop_append_of_le_length, List.drop_of_length_le, List.nil_append]
    all_goals rw [length_packVec, params_eq]; simp [PSet.PUBLICKEYBYTES, PSet.INDCPA_PUBLICKEYBYTES, PSet.POLYVECCOMPRESSEDBYTES, POLYCOMPRESSEDBYTES, EP, N]
  · intro σ rb st st1 m h cb kb pk hc hk hpk
    exact C02_enc_spec P rb st st1 m h cb kb pk hc hk hpk

/-- C30: layout of the secret key and sizes of the three outputs. -/
theorem C30_layout_sizes {σ : Type} (P : PSet) (rb : RandomBytes σ) (st st1 st2 st3 : σ) (r1 r2 z : List Byte)
    (h1 : Delivers rb 32 st r1 st1) (h2 : Delivers rb 32 st1 r2 st2) (h3 : Delivers rb 32 st2 z st3)
    (pkb skb : List Byte) (hpk : pkb.length = P.PUBLICKEYBYTES) (hsk : skb.length = P.SECRETKEYBYTES) :
    ∃ pk sk, crypto_kem_keypair P rb pkb skb st = .ok (0, pk, sk, st3) ∧
      sk = packVec 13 (genSecret (params P) r2) ++ pk ++ Keccak.sha3_256 pk ++ z ∧
      pk.length = P.PUBLICKEYBYTES ∧ sk.length = P.SECRETKEYBYTES := by
  refine ⟨_, _, C01_keypair_spec P rb st st1 st2 st3 r1 r2 z h1 h2 h3 pkb skb hpk hsk, rfl, ?_, ?_⟩
  · rw [length_kemPk, params_eq]; rfl
  · unfold kemSk
    rw [List.length_append, List.length_append, List.length_append, length_pkeKeyGenSk, length_kemPk, length_sha3_256, h3.1, params_eq]; rfl

/-- C30: the sizes are those of api.h (api.h:16-19). -/
theorem C30_sizes :
    (PSet.light.PUBLICKEYBYTES, PSet.light.SECRETKEYBYTES, PSet.light.BYTES_CCA_DEC) = (672, 1568, 736) ∧
    (PSet.saber.PUBLICKEYBYTES, PSet.saber.SECRETKEYBYTES, PSet.saber.BYTES_CCA_DEC) = (992, 2304, 1088) ∧
    (PSet.fire.PUBLICKEYBYTES, PSet.fire.SECRETKEYBYTES, PSet.fire.BYTES_CCA_DEC) = (1312, 3040, 1472) := by decide

end Saber.Props
