import Verif.Proof.U.Correct
import Verif.Props.Kem
import Verif.Props.Sample
/-!
# Properties of uSaber and Saber-90s: C35

All theorems that take a configuration `f : U.Cfg` hold for the twelve builds of `Variants/uSaber-90s/ref`: three ranks, with and without
`uSaber`, with and without `Saber90s`.
-/
namespace Saber.Props
open Spec

/-- The specification's parameters of a build. -/
def variant (f : U.Cfg) : USpec.Params :=
  ⟨(params f.P).l, (params f.P).mu, (params f.P).eT, f.u, if f.s90 then USpec.s90 else USpec.fips202⟩

theorem variant_eq (f : U.Cfg) : variant f = f.spec := by
  obtain ⟨P, u, s⟩ := f
  cases P <;> rfl

/-- Value of a pattern of two bits: 00, 01, 10, 11 (most significant bit first) are 0, 1, -2, -1. -/
def pattern2 (b0 b1 : Bool) : Int := (b0.toNat : Int) - 2 * b1.toNat

theorem uniform2_pattern (bs : List Byte) (k : Fin 256) :
    USpec.uniform2 bs k = pattern2 (bitAt bs (2 * k.val)) (bitAt bs (2 * k.val + 1)) := by
  unfold USpec.uniform2 pattern2 unpack
  simp only [natOfBits_succ, show natOfBits 0 _ = 0 from rfl]
  cases h0 : bitAt bs (2 * k.val) <;> cases h1 : bitAt bs (2 * k.val + 1) <;> simp_all

theorem pattern2_range (b0 b1 : Bool) : -2 ≤ pattern2 b0 b1 ∧ pattern2 b0 b1 ≤ 1 := by cases b0 <;> cases b1 <;> decide

/-- C35: coefficient `k` of polynomial `i` of a uSaber secret is the value of the two bits at position `2 (256 i + k)` of the expanded seed;
it is stored in two's complement and lies in `[-2, 1]`. -/
theorem C35_uniform_secret (P : PSet) (s90 : Bool) (s : List (List (BitVec 16))) (hv : IsVec P.L s) (seed : List Byte)
    (hs : seed.length = 32) :
    ∃ s', U.GenSecret ⟨P, true, s90⟩ s seed 0 = .ok s' ∧ IsVec P.L s' ∧ ∀ i : Fin P.L, ∀ k, k < 256 →
      let buf := (variant ⟨P, true, s90⟩).sym.prf seed (P.L * 64)
      let x := ((s'.getD i.val []).getD k 0).toInt
      x = pattern2 (bitAt buf (2 * (256 * i.val + k))) (bitAt buf (2 * (256 * i.val + k) + 1)) ∧ -2 ≤ x ∧ x ≤ 1 := by
  refine ⟨_, U.GenSecret_ok ⟨P, true, s90⟩ s hv seed 0 (by omega), isVec_ofV _, fun i k hk => ?_⟩
  rw [List.drop_zero, List.take_of_length_le (by omega), variant_eq]
  intro buf x
  have hg : (ofV (L := P.L) (USpec.genSecret (U.Cfg.spec ⟨P, true, s90⟩) seed)).getD i.val []
      = ofP (USpec.uniform2 (buf.drop (i.val * 64))) := by
    have : P.L * 2 * 32 = P.L * 64 := by omega
    simp [ofV, USpec.genSecret, USpec.sample, USpec.Params.coinBits, buf, this, Nat.mul_assoc]
  have hx : x = pattern2 (bitAt buf (2 * (256 * i.val + k))) (bitAt buf (2 * (256 * i.val + k) + 1)) := by
    show ((List.getD (ofV (L := P.L) (USpec.genSecret (U.Cfg.spec ⟨P, true, s90⟩) seed)) i.val []).getD k 0).toInt = _
    rw [hg, ofP, getD_map_range _ _ _ _ hk, uniform2_pattern, bitAt_drop, bitAt_drop, Fin.val_ofNat, Nat.mod_eq_of_lt hk,
      show 8 * (i.val * 64) + 2 * k = 2 * (256 * i.val + k) by omega,
      show 8 * (i.val * 64) + (2 * k + 1) = 2 * (256 * i.val + k) + 1 by omega]
    have hr := pattern2_range (bitAt buf (2 * (256 * i.val + k))) (bitAt buf (2 * (256 * i.val + k) + 1))
    rw [BitVec.toInt_ofInt]
    apply Int.bmod_eq_of_le <;> omega
  rw [hx]
  exact ⟨rfl, pattern2_range _ _⟩

/-- C35: every value in `[-2, 1]` is the value of exactly one of the four patterns. -/
theorem C35_uniform_patterns (v : Int) (h : -2 ≤ v ∧ v ≤ 1) : ∃! b : Bool × Bool, pattern2 b.1 b.2 = v := by
  have : v = -2 ∨ v = -1 ∨ v = 0 ∨ v = 1 := by omega
  rcases this with rfl | rfl | rfl | rfl
  · exact ⟨(false, true), rfl, by decide⟩
  · exact ⟨(true, true), rfl, by decide⟩
  · exact ⟨(false, false), rfl, by decide⟩
  · exact ⟨(true, false), rfl, by decide⟩

/-- C35: packing with 12 bits per coefficient writes bit `n mod 12` of coefficient `n div 12` to bit `n`, and unpacking returns the
coefficients modulo `2^12`. -/
theorem C35_pack12_unpack (P : PSet) (s90 : Bool) (bytes : List Byte) (data data0 : List (List (BitVec 16))) (hd : IsVec P.L data)
    (hd0 : IsVec P.L data0) (hb : bytes.length = P.L * 384) :
    ∃ out data', U.POLVECq2BS ⟨P, true, s90⟩ bytes 0 data = .ok out ∧ out.length = P.L * 384 ∧
      (∀ (i : Fin P.L) n, n < 256 * 12 → bitAt out (256 * 12 * i.val + n) = ((data.getD i.val []).getD (n / 12) 0).getLsbD (n % 12)) ∧
      U.BS2POLVECq ⟨P, true, s90⟩ out 0 data0 = .ok data' ∧ IsVec P.L data' ∧ ∀ i k, toV P.L data' i k = toV P.L data i k % 4096 := by
  have e : U.Cfg.EQ ⟨P, true, s90⟩ = 12 := rfl
  have h1 := U.POLVECq2BS_ok ⟨P, true, s90⟩ bytes 0 data hd (by rw [e]; show 0 + P.L * (32 * 12) ≤ _; omega)
  rw [e, writeAt_full _ _ (by simp [hb])] at h1
  have h2 := U.BS2POLVECq_ok ⟨P, true, s90⟩ (packVec 12 (toV P.L data)) 0 data0 hd0 (by simp [e])
  refine ⟨_, _, h1, by simp, fun i n hn => bitAt_packVec 12 P.L data i n hn, h2, isVec_ofV _, fun i k => ?_⟩
  rw [toV_ofV, toP_ofP, List.drop_zero]
  have := unpackVec_packVec 12 (toV P.L data) [] i k
  rw [List.append_nil] at this
  rw [e]
  show unpackVec 12 P.L _ i k % 65536 = _
  rw [this]; omega

/-- C35: unpacking any byte string with 12 bits per coefficient and packing the result gives the byte string back. -/
theorem C35_unpack12_pack (P : PSet) (s90 : Bool) (bytes out : List Byte) (data0 : List (List (BitVec 16))) (hd0 : IsVec P.L data0)
    (hb : bytes.length = P.L * 384) (ho : out.length = P.L * 384) :
    ∃ data', U.BS2POLVECq ⟨P, true, s90⟩ bytes 0 data0 = .ok data' ∧ U.POLVECq2BS ⟨P, true, s90⟩ out 0 data' = .ok bytes := by
  have e : U.Cfg.EQ ⟨P, true, s90⟩ = 12 := rfl
  have hb' : 0 + P.L * (32 * 12) ≤ bytes.length := by omega
  have ho' : 0 + P.L * (32 * 12) ≤ out.length := by omega
  refine ⟨_, U.BS2POLVECq_ok ⟨P, true, s90⟩ bytes 0 data0 hd0 hb', ?_⟩
  rw [U.POLVECq2BS_ok ⟨P, true, s90⟩ out 0 _ (isVec_ofV _) ho', e]
  show Except.ok (writeAt out 0 (packVec 12 (toV P.L (ofV (unpackVec 12 P.L (bytes.drop 0)))))) = _
  rw [writeAt_full _ _ (by simp [ho])]
  rw [packVec_toV_ofV _ _ (by omega), List.drop_zero, packVec_unpackVec 12 P.L bytes (by omega), List.take_of_length_le (by omega)]

/-- The hypotheses of the packing theorems are met. -/
example : IsVec PSet.saber.L (List.replicate 3 (List.replicate 256 0xFFFF)) ∧ (List.replicate (3 * 384) (0xA5 : Byte)).length = PSet.saber.L * 384 :=
  ⟨⟨List.length_replicate, fun i hi => by
    have h3 : i < 3 := hi
    rw [List.getD_eq_getElem?_getD, List.getElem?_replicate, if_pos h3, Option.getD_some, List.length_replicate]⟩, List.length_replicate⟩

/-! ### The KEM -/

/-- C35: key generation computes the key pair of the specification. -/
theorem C35_keypair_spec {σ : Type} (f : U.Cfg) (rb : RandomBytes σ) (st st1 st2 st3 : σ) (r1 r2 z : List Byte)
    (h1 : Delivers rb 32 st r1 st1) (h2 : Delivers rb 32 st1 r2 st2) (h3 : Delivers rb 32 st2 z st3)
    (pk sk : List Byte) (hpk : pk.length = f.PUBLICKEYBYTES) (hsk : sk.length = f.SECRETKEYBYTES) :
    U.crypto_kem_keypair f rb pk sk st = .ok (0, USpec.kemPk (variant f) r1 r2, USpec.kemSk (variant f) r1 r2 z, st3) := by
  rw [variant_eq]
  exact U.crypto_kem_keypair_ok f rb st st1 st2 st3 r1 r2 z h1 h2 h3 pk sk hpk hsk

/-- C35: encapsulation computes the ciphertext and key of the specification, for every public key. -/
theorem C35_enc_spec {σ : Type} (f : U.Cfg) (rb : RandomBytes σ) (st st1 : σ) (m0 : List Byte) (h : Delivers rb 32 st m0 st1)
    (c k pk : List Byte) (hc : c.length = f.BYTES_CCA_DEC) (hk : k.length = 32) (hpk : pk.length = f.PUBLICKEYBYTES) :
    U.crypto_kem_enc f rb c k pk st = .ok (0, USpec.encapsC (variant f) m0 pk, USpec.encapsK (variant f) m0 pk, st1) := by
  rw [variant_eq]
  exact U.crypto_kem_enc_ok f rb st st1 m0 h c k pk hc hk hpk

/-- C35: decapsulation computes the key of the specification, for every secret key and every ciphertext. -/
theorem C35_dec_spec (f : U.Cfg) (k c sk : List Byte) (hk : k.length = 32) (hc : c.length = f.BYTES_CCA_DEC)
    (hsk : sk.length = f.SECRETKEYBYTES) : U.crypto_kem_dec f k c sk = .ok (0, USpec.decaps (variant f) sk c) := by
  rw [variant_eq]
  exact U.crypto_kem_dec_ok f k c sk hk hc hsk

theorem length_variantPk (f : U.Cfg) (r1 r2 : List Byte) (h : r1.length = 32) : (USpec.kemPk (variant f) r1 r2).length = f.PUBLICKEYBYTES := by
  rw [variant_eq, U.length_kemPk f _ _ h]
  exact (U.PK_eq f).symm

theorem length_variantSk (f : U.Cfg) (r1 r2 z : List Byte) (h : r1.length = 32) (hz : z.length = 32) :
    (USpec.kemSk (variant f) r1 r2 z).length = f.SECRETKEYBYTES := by
  rw [variant_eq, U.KSK_eq f]
  unfold USpec.kemSk
  rw [List.length_append, List.length_append, List.length_append, U.length_pkeKeyGenSk, U.length_kemPk f _ _ h, U.length_H, hz]

theorem length_variantC (f : U.Cfg) (m0 pk : List Byte) : (USpec.encapsC (variant f) m0 pk).length = f.BYTES_CCA_DEC := by
  rw [variant_eq, USpec.encapsC, U.length_pkeEnc, U.CT_eq]

/-- C35: none of the three functions has undefined behaviour, whatever the buffers contain. -/
theorem C35_no_UB {σ : Type} (f : U.Cfg) (rb : RandomBytes σ) (hrb : ∀ st, ∃ r st', Delivers rb 32 st r st')
    (st : σ) (pk sk c k : List Byte) (hpk : pk.length = f.PUBLICKEYBYTES) (hsk : sk.length = f.SECRETKEYBYTES)
    (hc : c.length = f.BYTES_CCA_DEC) (hk : k.length = 32) :
    (∃ out, U.crypto_kem_keypair f rb pk sk st = .ok out) ∧ (∃ out, U.crypto_kem_enc f rb c k pk st = .ok out) ∧
      (∃ out, U.crypto_kem_dec f k c sk = .ok out) := by
  obtain ⟨r1, st1, h1⟩ := hrb st
  obtain ⟨r2, st2, h2⟩ := hrb st1
  obtain ⟨z, st3, h3⟩ := hrb st2
  exact ⟨⟨_, C35_keypair_spec f rb st st1 st2 st3 r1 r2 z h1 h2 h3 pk sk hpk hsk⟩, ⟨_, C35_enc_spec f rb st st1 r1 h1 c k pk hc hk hpk⟩,
    ⟨_, C35_dec_spec f k c sk hk hc hsk⟩⟩

/-- C35: key generation, encapsulation and decapsulation in sequence agree on the key if the noise of the exchange is in range. -/
theorem C35_agreement {σ : Type} (f : U.Cfg) (rb : RandomBytes σ) (st st1 st2 st3 st4 : σ) (r1 r2 z m0 : List Byte)
    (h1 : Delivers rb 32 st r1 st1) (h2 : Delivers rb 32 st1 r2 st2) (h3 : Delivers rb 32 st2 z st3) (h4 : Delivers rb 32 st3 m0 st4)
    (pkb skb cb kb kb' : List Byte) (hpk : pkb.length = f.PUBLICKEYBYTES) (hsk : skb.length = f.SECRETKEYBYTES)
    (hc : cb.length = f.BYTES_CCA_DEC) (hk : kb.length = 32) (hk' : kb'.length = 32)
    (hnoise : ∀ i, USpec.NoiseOk (variant f).eq (USpec.noise (variant f).eq (variant f).eT
      (USpec.genMatrix (variant f) ((variant f).sym.prf r1 32)) (USpec.genSecret (variant f) r2)
      (USpec.genSecret (variant f) (USpec.encapsCoins (variant f) m0 (USpec.kemPk (variant f) r1 r2)))) i) :
    ∃ pk sk c key, U.crypto_kem_keypair f rb pkb skb st = .ok (0, pk, sk, st3) ∧
      U.crypto_kem_enc f rb cb kb pk st3 = .ok (0, c, key, st4) ∧ U.crypto_kem_dec f kb' c sk = .ok (0, key) := by
  refine ⟨_, _, _, _, C35_keypair_spec f rb st st1 st2 st3 r1 r2 z h1 h2 h3 pkb skb hpk hsk,
    C35_enc_spec f rb st3 st4 m0 h4 cb kb _ hc hk (length_variantPk f r1 r2 h1.1), ?_⟩
  rw [C35_dec_spec f kb' _ _ hk' (length_variantC f _ _) (length_variantSk f r1 r2 z h1.1 h3.1)]
  rw [variant_eq] at *
  rw [U.kem_agree f r1 r2 z m0 h1.1 hnoise]

/-- C35: decryption of an honest encryption returns bit `i` of the message if and only if the `i`-th coefficient of the noise is in
`[-q/4, q/4)` modulo `q`; hence it returns the message if and only if all coefficients are. -/
theorem C35_failure_criterion {σ : Type} (f : U.Cfg) (rb : RandomBytes σ) (st st1 st2 : σ) (r1 r2 : List Byte)
    (h1 : Delivers rb 32 st r1 st1) (h2 : Delivers rb 32 st1 r2 st2) (pkb skb cb mb : List Byte)
    (hpk : pkb.length = f.INDCPA_PUBLICKEYBYTES) (hsk : skb.length = f.INDCPA_SECRETKEYBYTES) (hc : cb.length = f.BYTES_CCA_DEC)
    (hm : mb.length = 32) (m coins : List Byte) (hml : m.length = 32) (hcl : coins.length = 32) :
    let ok := USpec.NoiseOk (variant f).eq (USpec.noise (variant f).eq (variant f).eT
      (USpec.genMatrix (variant f) ((variant f).sym.prf r1 32)) (USpec.genSecret (variant f) r2) (USpec.genSecret (variant f) coins))
    ∃ pk sk c m', U.indcpa_kem_keypair f rb pkb skb st = .ok (pk, sk, st2) ∧ U.indcpa_kem_enc f m 0 coins 0 pk 0 cb = .ok c ∧
      U.indcpa_kem_dec f sk c mb = .ok m' ∧ m'.length = 32 ∧
      (∀ i : Fin 256, bitAt m' i.val = bitAt m i.val ↔ ok i) ∧ (m' = m ↔ ∀ i, ok i) := by
  intro ok
  have k1 := U.PK_eq f
  have k2 := U.SK_eq f
  have k3 := U.CT_eq f
  have lA : (f.sym.prf r1 32).length = 32 := U.length_prf _ _ _ h1.1
  have lpk : (USpec.pkeKeyGenPk f.spec (f.sym.prf r1 32) r2).length = f.INDCPA_PUBLICKEYBYTES := by
    rw [U.length_pkeKeyGenPk, lA, k1]
  have lsk : (USpec.pkeKeyGenSk f.spec r2).length = f.INDCPA_SECRETKEYBYTES := by rw [U.length_pkeKeyGenSk, k2]
  have e1 := U.indcpa_enc_ok f m 0 coins 0 (USpec.pkeKeyGenPk f.spec (f.sym.prf r1 32) r2) 0 cb (by omega) (by omega) (by omega) hc
  rw [List.drop_zero, List.drop_zero, List.drop_zero, List.take_of_length_le (by omega), List.take_of_length_le (by omega),
    List.take_of_length_le (by omega)] at e1
  have lc : (USpec.pkeEnc f.spec m coins (USpec.pkeKeyGenPk f.spec (f.sym.prf r1 32) r2)).length = f.BYTES_CCA_DEC := by
    rw [U.length_pkeEnc, k3]
  have e2 := U.indcpa_dec_ok f (USpec.pkeKeyGenSk f.spec r2) (USpec.pkeEnc f.spec m coins (USpec.pkeKeyGenPk f.spec (f.sym.prf r1 32) r2)) mb
    (by omega) (by omega) (by omega)
  rw [List.take_of_length_le (by omega), List.take_of_length_le (by omega), writeAt_full _ _ (by rw [U.length_pkeDec]; exact hm)] at e2
  have e0 := U.indcpa_keypair_ok f rb st st1 st2 r1 r2 h1 h2 pkb skb hpk (by omega)
  rw [writeAt_full _ _ (by omega)] at e0
  have hok : ok = USpec.NoiseOk f.EQ (USpec.noise f.EQ f.P.ET (USpec.genMatrix f.spec (f.sym.prf r1 32)) (USpec.genSecret f.spec r2)
    (USpec.genSecret f.spec coins)) := by
    show USpec.NoiseOk (variant f).eq _ = _
    rw [variant_eq]
    rfl
  rw [hok]
  refine ⟨_, _, _, _, e0, e1, e2, U.length_pkeDec _ _ _, ?_, U.pke_correct_iff f _ _ _ _ hml⟩
  intro i
  rw [← U.pke_bit_iff f (f.sym.prf r1 32) r2 m coins i]
  generalize USpec.pkeDec f.spec (USpec.pkeKeyGenSk f.spec r2) (USpec.pkeEnc f.spec m coins (USpec.pkeKeyGenPk f.spec (f.sym.prf r1 32) r2)) = m'
  have key : ∀ bs, unpack 1 bs i = ((bitAt bs i.val).toNat : Int) := by
    intro bs
    unfold unpack
    rw [natOfBits_succ]
    simp [natOfBits]
  rw [key, key]
  cases bitAt m' i.val <;> cases bitAt m i.val <;> decide

/-- The boundary of the noise in uSaber: `-1024` and `1023` are accepted, `1024` and `-1025` are not. -/
example : USpec.NoiseOk 12 (fun _ => -1024) 0 ∧ USpec.NoiseOk 12 (fun _ => 1023) 0 ∧ ¬ USpec.NoiseOk 12 (fun _ => 1024) 0 ∧
    ¬ USpec.NoiseOk 12 (fun _ => -1025) 0 := by
  unfold USpec.NoiseOk; decide

/-- C35: if the ciphertext is not the re-encryption of the decrypted message, decapsulation returns 0 and the key
`H(z || H(c))`, with `z` the last 32 bytes of the secret key. -/
theorem C35_implicit_rejection (f : U.Cfg) (k c sk : List Byte) (hk : k.length = 32) (hc : c.length = f.BYTES_CCA_DEC)
    (hsk : sk.length = f.SECRETKEYBYTES) (hrej : c ≠ USpec.reEncrypt (variant f) sk c) :
    U.crypto_kem_dec f k c sk = .ok (0, (variant f).sym.H (sk.drop (sk.length - 32) ++ (variant f).sym.H c)) := by
  rw [C35_dec_spec f k c sk hk hc hsk, USpec.decaps, if_neg hrej]
  have : USpec.skZ (variant f) sk = sk.drop (sk.length - 32) := by
    rw [variant_eq, USpec.skZ, hsk, U.KSK_eq]
    show (sk.drop (f.P.L * (32 * f.EQ) + (f.P.L * 320 + 32) + 32)).take 32 = _
    rw [List.take_of_length_le (by rw [List.length_drop, hsk, U.KSK_eq]; omega), Nat.add_sub_cancel]
  rw [this]
  rfl

/-! ### Without the two options -/

theorem plain_h1 : USpec.h1 13 = Spec.h1 := by decide

theorem plain_roundP : USpec.roundP 13 = roundP := by
  funext x k
  unfold USpec.roundP roundP
  rw [plain_h1]
  norm_num

theorem plain_pkeEnc (P : PSet) (m s pk : List Byte) : USpec.pkeEnc (variant ⟨P, false, false⟩) m s pk = pkeEnc (params P) m s pk := by
  have e : (variant ⟨P, false, false⟩).eq = 13 := rfl
  unfold USpec.pkeEnc pkeEnc USpec.encodeMsg encodeMsg
  rw [e, plain_roundP, plain_h1]
  rfl

theorem plain_pkeDec (P : PSet) (sk c : List Byte) : USpec.pkeDec (variant ⟨P, false, false⟩) sk c = pkeDec (params P) sk c := by
  have e : (variant ⟨P, false, false⟩).eq = 13 := rfl
  unfold USpec.pkeDec pkeDec USpec.decodeMsg decodeMsg
  rw [e, show USpec.h2 13 (variant ⟨P, false, false⟩).eT = Spec.h2 (params P).eT by unfold USpec.h2 Spec.h2; norm_num; rfl]
  rfl

theorem plain_kemPk (P : PSet) (r1 r2 : List Byte) : USpec.kemPk (variant ⟨P, false, false⟩) r1 r2 = kemPk (params P) r1 r2 := by
  have e : (variant ⟨P, false, false⟩).eq = 13 := rfl
  unfold USpec.kemPk kemPk USpec.pkeKeyGenPk pkeKeyGenPk USpec.pubVec pubVec
  rw [e, plain_roundP]
  rfl

theorem plain_kemSk (P : PSet) (r1 r2 z : List Byte) : USpec.kemSk (variant ⟨P, false, false⟩) r1 r2 z = kemSk (params P) r1 r2 z := by
  unfold USpec.kemSk kemSk
  rw [plain_kemPk]
  rfl

theorem plain_encapsC (P : PSet) (m0 pk : List Byte) : USpec.encapsC (variant ⟨P, false, false⟩) m0 pk = encapsC (params P) m0 pk := by
  unfold USpec.encapsC encapsC
  dsimp only
  rw [plain_pkeEnc]
  rfl

theorem plain_encapsK (P : PSet) (m0 pk : List Byte) : USpec.encapsK (variant ⟨P, false, false⟩) m0 pk = encapsK (params P) m0 pk := by
  unfold USpec.encapsK encapsK
  dsimp only
  rw [plain_encapsC]
  rfl

theorem plain_decaps (P : PSet) (sk c : List Byte) : USpec.decaps (variant ⟨P, false, false⟩) sk c = decaps (params P) sk c := by
  have h1 : USpec.decapsM (variant ⟨P, false, false⟩) sk c = decapsM (params P) sk c := plain_pkeDec P _ c
  have h2 : USpec.decapsKr (variant ⟨P, false, false⟩) sk c = decapsKr (params P) sk c := by
    unfold USpec.decapsKr decapsKr
    rw [h1]; rfl
  have h3 : USpec.reEncrypt (variant ⟨P, false, false⟩) sk c = reEncrypt (params P) sk c := by
    unfold USpec.reEncrypt reEncrypt
    rw [h1, h2, plain_pkeEnc]; rfl
  unfold USpec.decaps decaps
  rw [h2, h3]
  rfl

/-- C35: built without the two options, the three functions compute what those of `Reference_Implementation_KEM` compute. -/
theorem C35_plain_is_reference {σ : Type} (P : PSet) (rb : RandomBytes σ) (hrb : ∀ st, ∃ r st', Delivers rb 32 st r st')
    (st : σ) (pk sk c k : List Byte) (hpk : pk.length = P.PUBLICKEYBYTES) (hsk : sk.length = P.SECRETKEYBYTES)
    (hc : c.length = P.BYTES_CCA_DEC) (hk : k.length = 32) :
    U.crypto_kem_keypair ⟨P, false, false⟩ rb pk sk st = crypto_kem_keypair P rb pk sk st ∧
    U.crypto_kem_enc ⟨P, false, false⟩ rb c k pk st = crypto_kem_enc P rb c k pk st ∧
    U.crypto_kem_dec ⟨P, false, false⟩ k c sk = crypto_kem_dec P k c sk := by
  obtain ⟨r1, st1, h1⟩ := hrb st
  obtain ⟨r2, st2, h2⟩ := hrb st1
  obtain ⟨z, st3, h3⟩ := hrb st2
  refine ⟨?_, ?_, ?_⟩
  · rw [C01_keypair_spec P rb st st1 st2 st3 r1 r2 z h1 h2 h3 pk sk hpk hsk,
      C35_keypair_spec ⟨P, false, false⟩ rb st st1 st2 st3 r1 r2 z h1 h2 h3 pk sk hpk hsk, plain_kemPk, plain_kemSk]
  · rw [C02_enc_spec P rb st st1 r1 h1 c k pk hc hk hpk, C35_enc_spec ⟨P, false, false⟩ rb st st1 r1 h1 c k pk hc hk hpk,
      plain_encapsC, plain_encapsK]
  · rw [C03_dec_spec P k c sk hk hc hsk, C35_dec_spec ⟨P, false, false⟩ k c sk hk hc hsk, plain_decaps]

/-- C35: the sizes of uSaber.  Public keys and ciphertexts are as long as those of Saber, secret keys are `32 L` bytes shorter. -/
theorem C35_sizes (s90 : Bool) :
    (U.Cfg.PUBLICKEYBYTES ⟨.light, true, s90⟩, U.Cfg.SECRETKEYBYTES ⟨.light, true, s90⟩, U.Cfg.BYTES_CCA_DEC ⟨.light, true, s90⟩) = (672, 1504, 736) ∧
    (U.Cfg.PUBLICKEYBYTES ⟨.saber, true, s90⟩, U.Cfg.SECRETKEYBYTES ⟨.saber, true, s90⟩, U.Cfg.BYTES_CCA_DEC ⟨.saber, true, s90⟩) = (992, 2208, 1088) ∧
    (U.Cfg.PUBLICKEYBYTES ⟨.fire, true, s90⟩, U.Cfg.SECRETKEYBYTES ⟨.fire, true, s90⟩, U.Cfg.BYTES_CCA_DEC ⟨.fire, true, s90⟩) = (1312, 2912, 1472) := by
  cases s90 <;> decide

/-- The hypotheses of the theorems on the KEM are met, here for uSaber-90s. -/
example : ∃ st1 st2 st3 : List Byte × List Nat, ∃ r1 r2 z,
    Delivers tapeRng 32 ((List.range 96).map n8, []) r1 st1 ∧ Delivers tapeRng 32 st1 r2 st2 ∧ Delivers tapeRng 32 st2 z st3 ∧
    (List.replicate 992 (7 : Byte)).length = U.Cfg.PUBLICKEYBYTES ⟨.saber, true, true⟩ ∧
    (List.replicate 2208 (7 : Byte)).length = U.Cfg.SECRETKEYBYTES ⟨.saber, true, true⟩ := by
  refine ⟨_, _, _, _, _, _, tapeRng_delivers 32 _ _ (by simp), tapeRng_delivers 32 _ _ (by simp), tapeRng_delivers 32 _ _ (by simp), ?_, ?_⟩
    <;> rw [List.length_replicate] <;> decide +kernel

end Saber.Props
