import Verif.Props.M4
import Verif.Props.Avx
/-!
# C92: keys and ciphertexts of different implementations can be mixed

The implementations are the reference, the AVX2 one and the Cortex-M4 one, the last with any hash library and any multiplication routine that meet their
contracts (`Spec/M4Lib.lean`), with and without `SABER_COMPRESS_SECRETKEY`.
-/
namespace Saber.Props
open Spec

/-- An implementation of the KEM. -/
inductive Impl
  | reference
  | avx2
  | cortexM4 (lib : M4.Fips202Lib) (toom : M4.Toom) (compress : Bool)

/-- What is assumed about the parts of an implementation that are not in the repository. -/
def Impl.Sound : Impl → Prop
  | .reference => True
  | .avx2 => True
  | .cortexM4 lib toom _ => lib.Correct ∧ toom.Correct

/-- Whether secret keys are stored in the compressed format. -/
def Impl.compressed : Impl → Bool
  | .cortexM4 _ _ cs => cs
  | _ => false

/-- The size of a secret key. -/
def Impl.skBytes (I : Impl) (P : PSet) : Nat := if I.compressed then M4.SECRETKEYBYTES P true else P.SECRETKEYBYTES

/-- `crypto_kem_keypair` of the implementation. -/
def Impl.keypair {σ : Type} (I : Impl) (P : PSet) (rb : RandomBytes σ) (pk sk : List Byte) (st : σ) : CM (Int × List Byte × List Byte × σ) :=
  match I with
  | .reference => crypto_kem_keypair P rb pk sk st
  | .avx2 => Avx.crypto_kem_keypair Avx.fips202 P rb pk sk st
  | .cortexM4 lib toom cs => M4.crypto_kem_keypair P lib toom cs rb pk sk st

/-- `crypto_kem_enc` of the implementation. -/
def Impl.enc {σ : Type} (I : Impl) (P : PSet) (rb : RandomBytes σ) (c k pk : List Byte) (st : σ) : CM (Int × List Byte × List Byte × σ) :=
  match I with
  | .reference => crypto_kem_enc P rb c k pk st
  | .avx2 => Avx.crypto_kem_enc Avx.fips202 P rb c k pk st
  | .cortexM4 lib toom cs => M4.crypto_kem_enc P lib toom cs rb c k pk st

/-- `crypto_kem_dec` of the implementation. -/
def Impl.dec (I : Impl) (P : PSet) (k c sk : List Byte) : CM (Int × List Byte) :=
  match I with
  | .reference => crypto_kem_dec P k c sk
  | .avx2 => Avx.crypto_kem_dec Avx.fips202 P k c sk
  | .cortexM4 lib toom cs => M4.crypto_kem_dec P lib toom cs k c sk

theorem Impl.keypair_spec {σ : Type} (I : Impl) (hI : I.Sound) (P : PSet) (rb : RandomBytes σ) (st st1 st2 st3 : σ) (r1 r2 z : List Byte)
    (h1 : Delivers rb 32 st r1 st1) (h2 : Delivers rb 32 st1 r2 st2) (h3 : Delivers rb 32 st2 z st3)
    (pk sk : List Byte) (hpk : pk.length = P.PUBLICKEYBYTES) (hsk : sk.length = I.skBytes P) :
    I.keypair P rb pk sk st = .ok (0, kemPk (params P) r1 r2, m4Sk P I.compressed r1 r2 z, st3) := by
  cases I with
  | reference => exact C01_keypair_spec P rb st st1 st2 st3 r1 r2 z h1 h2 h3 pk sk hpk hsk
  | avx2 => exact C55_keypair_spec P rb st st1 st2 st3 r1 r2 z h1 h2 h3 pk sk hpk hsk
  | cortexM4 lib toom cs =>
    exact C36_keypair_spec P cs lib hI.1 toom hI.2 rb st st1 st2 st3 r1 r2 z h1 h2 h3 pk sk hpk (by rw [hsk]; cases cs <;> rfl)

theorem Impl.enc_spec {σ : Type} (I : Impl) (hI : I.Sound) (P : PSet) (rb : RandomBytes σ) (st st1 : σ) (m0 : List Byte) (h : Delivers rb 32 st m0 st1)
    (c k pk : List Byte) (hc : c.length = P.BYTES_CCA_DEC) (hk : k.length = 32) (hpk : pk.length = P.PUBLICKEYBYTES) :
    I.enc P rb c k pk st = .ok (0, encapsC (params P) m0 pk, encapsK (params P) m0 pk, st1) := by
  cases I with
  | reference => exact C02_enc_spec P rb st st1 m0 h c k pk hc hk hpk
  | avx2 => exact C55_enc_spec P rb st st1 m0 h c k pk hc hk hpk
  | cortexM4 lib toom cs => exact C36_enc_spec P cs lib hI.1 toom hI.2 rb st st1 m0 h c k pk hc hk hpk

theorem Impl.dec_spec (I : Impl) (hI : I.Sound) (P : PSet) (k c sk : List Byte) (hk : k.length = 32) (hc : c.length = P.BYTES_CCA_DEC)
    (hsk : sk.length = I.skBytes P) :
    I.dec P k c sk = .ok (0, decaps (params P) (if I.compressed then expandSk (params P) sk else sk) c) := by
  cases I with
  | reference => exact C03_dec_spec P k c sk hk hc hsk
  | avx2 => exact C55_dec_spec P k c sk hk hc hsk
  | cortexM4 lib toom cs => exact C36_dec_spec P cs lib hI.1 toom hI.2 k c sk hk hc (by rw [hsk]; cases cs <;> rfl)

theorem length_m4Sk (P : PSet) (I : Impl) (r1 r2 z : List Byte) (hz : z.length = 32) : (m4Sk P I.compressed r1 r2 z).length = I.skBytes P := by
  unfold Impl.skBytes
  cases I.compressed
  · show (kemSk (params P) r1 r2 z).length = P.SECRETKEYBYTES
    unfold kemSk
    rw [List.length_append, List.length_append, List.length_append, length_pkeKeyGenSk, length_kemPk, length_sha3_256, hz, params_eq]; rfl
  · show (kemSkC (params P) r1 r2 z).length = M4.SECRETKEYBYTES P true
    unfold kemSkC pkeKeyGenSkC
    rw [List.length_append, List.length_append, List.length_append, length_packVec, length_kemPk, length_sha3_256, hz, params_eq]; rfl

theorem expand_m4Sk (P : PSet) (cs : Bool) (r1 r2 z : List Byte) (hz : z.length = 32) :
    (if cs then expandSk (params P) (m4Sk P cs r1 r2 z) else m4Sk P cs r1 r2 z) = kemSk (params P) r1 r2 z := by
  cases cs
  · rfl
  · simp only [m4Sk, if_true, params_eq]
    rw [M4.expandSk_gen]

/-- C92: with the same random bytes, any two implementations make the same public key and leave their generators in the same state; secret keys are the same bytes if
both implementations use the same format, and in any case lead to the same shared secret for every ciphertext, honest or not. -/
theorem C92_same_keys {σ : Type} (I J : Impl) (hI : I.Sound) (hJ : J.Sound) (P : PSet) (rb : RandomBytes σ) (hrb : ∀ st, ∃ r st', Delivers rb 32 st r st')
    (st : σ) (pk pk' sk sk' k k' c : List Byte) (hpk : pk.length = P.PUBLICKEYBYTES) (hpk' : pk'.length = P.PUBLICKEYBYTES)
    (hsk : sk.length = I.skBytes P) (hsk' : sk'.length = J.skBytes P) (hk : k.length = 32) (hk' : k'.length = 32) (hc : c.length = P.BYTES_CCA_DEC) :
    ∃ pkOut skI skJ st' key, I.keypair P rb pk sk st = .ok (0, pkOut, skI, st') ∧ J.keypair P rb pk' sk' st = .ok (0, pkOut, skJ, st') ∧
      (I.compressed = J.compressed → skI = skJ) ∧ I.dec P k c skI = .ok (0, key) ∧ J.dec P k' c skJ = .ok (0, key) := by
  obtain ⟨r1, st1, h1⟩ := hrb st
  obtain ⟨r2, st2, h2⟩ := hrb st1
  obtain ⟨z, st3, h3⟩ := hrb st2
  refine ⟨_, _, _, _, _, I.keypair_spec hI P rb st st1 st2 st3 r1 r2 z h1 h2 h3 pk sk hpk hsk,
    J.keypair_spec hJ P rb st st1 st2 st3 r1 r2 z h1 h2 h3 pk' sk' hpk' hsk', fun e => by rw [e],
    I.dec_spec hI P k c _ hk hc (length_m4Sk P I r1 r2 z h3.1), ?_⟩
  rw [J.dec_spec hJ P k' c _ hk' hc (length_m4Sk P J r1 r2 z h3.1), expand_m4Sk P _ r1 r2 z h3.1, expand_m4Sk P _ r1 r2 z h3.1]

/-- C92: with the same random bytes, any two implementations make the same ciphertext and shared secret for every public key. -/
theorem C92_same_encapsulation {σ : Type} (I J : Impl) (hI : I.Sound) (hJ : J.Sound) (P : PSet) (rb : RandomBytes σ)
    (hrb : ∀ st, ∃ r st', Delivers rb 32 st r st') (st : σ) (c c' k k' pk : List Byte) (hc : c.length = P.BYTES_CCA_DEC) (hc' : c'.length = P.BYTES_CCA_DEC)
    (hk : k.length = 32) (hk' : k'.length = 32) (hpk : pk.length = P.PUBLICKEYBYTES) :
    I.enc P rb c k pk st = J.enc P rb c' k' pk st ∧ ∃ out, I.enc P rb c k pk st = .ok out := by
  obtain ⟨m, st1, h⟩ := hrb st
  rw [I.enc_spec hI P rb st st1 m h c k pk hc hk hpk, J.enc_spec hJ P rb st st1 m h c' k' pk hc' hk' hpk]
  exact ⟨rfl, _, rfl⟩

/-- C92: if one implementation makes a key pair, a second one encapsulates to its public key, with another generator, and a third one that uses the same format of
secret keys as the first decapsulates, then the shared secrets are equal whenever the noise of the exchange is in range (cf. C05, C06, C65). -/
theorem C92_agreement {σ τ : Type} (K E D : Impl) (hK : K.Sound) (hE : E.Sound) (hD : D.Sound) (hKD : K.compressed = D.compressed) (P : PSet)
    (rb : RandomBytes σ) (rb' : RandomBytes τ) (st st1 st2 st3 : σ) (t t1 : τ) (r1 r2 z m0 : List Byte)
    (h1 : Delivers rb 32 st r1 st1) (h2 : Delivers rb 32 st1 r2 st2) (h3 : Delivers rb 32 st2 z st3) (h4 : Delivers rb' 32 t m0 t1)
    (pkb skb cb kb kb' : List Byte) (hpk : pkb.length = P.PUBLICKEYBYTES) (hsk : skb.length = K.skBytes P)
    (hc : cb.length = P.BYTES_CCA_DEC) (hk : kb.length = 32) (hk' : kb'.length = 32)
    (hnoise : ∀ i, NoiseOk (noise (params P).eT (genMatrix (params P) (Keccak.shake128 r1 32)) (genSecret (params P) r2)
      (genSecret (params P) ((Keccak.sha3_512 (Keccak.sha3_256 m0 ++ Keccak.sha3_256 (kemPk (params P) r1 r2))).drop 32))) i) :
    ∃ pk sk c key, K.keypair P rb pkb skb st = .ok (0, pk, sk, st3) ∧ E.enc P rb' cb kb pk t = .ok (0, c, key, t1) ∧ D.dec P kb' c sk = .ok (0, key) := by
  have l1 : (kemPk (params P) r1 r2).length = P.PUBLICKEYBYTES := by rw [length_kemPk, params_eq]; rfl
  have l3 : (encapsC (params P) m0 (kemPk (params P) r1 r2)).length = P.BYTES_CCA_DEC := by
    rw [encapsC, length_pkeEnc, CT_eq, params_eq]
  refine ⟨_, _, _, _, K.keypair_spec hK P rb st st1 st2 st3 r1 r2 z h1 h2 h3 pkb skb hpk hsk,
    E.enc_spec hE P rb' t t1 m0 h4 cb kb _ hc hk l1, ?_⟩
  rw [hKD, D.dec_spec hD P kb' _ _ hk' l3 (length_m4Sk P D r1 r2 z h3.1), expand_m4Sk P _ r1 r2 z h3.1,
    kem_agree (params P) (params_eT P) r1 r2 z m0 hnoise]

/-- C92: three different implementations that meet the requirements, two of them with the same format of secret keys. -/
example : Impl.Sound .reference ∧ Impl.Sound .avx2 ∧ Impl.Sound (.cortexM4 M4.refLib (M4.toom_cook_4way_striding .wrap M4.refKara) true) ∧
    Impl.compressed .avx2 = Impl.compressed .reference ∧
    (List.replicate 1440 (7 : Byte)).length = Impl.skBytes (.cortexM4 M4.refLib (M4.toom_cook_4way_striding .wrap M4.refKara) true) .saber ∧
    (List.replicate 2304 (7 : Byte)).length = Impl.skBytes .avx2 .saber := by
  refine ⟨trivial, trivial, ⟨M4.refLib_correct, M4.refToom_correct⟩, rfl, ?_, ?_⟩ <;> rw [List.length_replicate] <;> decide +kernel

end Saber.Props
