import Verif.Proof.Cca
import Verif.Proof.U.Correct
import Verif.Props.Hiding
/-!
# C81 and C82: secrecy of the shared secret

`Spec/Rom.lean` and `Spec/Cca.lean` define the attackers and the games, in which one or two hash functions are random functions.  `C81_code` and
`C81_code_variants` show that the code computes what the games compute, with the hash functions of the code in the places of the random functions.
-/
namespace Saber.Props
open Spec Saber.Hiding Saber.Prob

theorem ofFn_bytes32 (x : List Byte) (h : x.length = 32) : List.ofFn (bytes32 x) = x := by
  refine List.ext_getElem (by rw [List.length_ofFn, h]) fun i h1 h2 => ?_
  rw [List.getElem_ofFn]
  unfold bytes32
  rw [List.getD_eq_getElem?_getD, List.getElem?_eq_getElem h2, Option.getD_some]

theorem ofFn_halves (y : List Byte) (h : y.length = 64) : List.ofFn (bytes32 (y.take 32)) = y.take 32 ∧ List.ofFn (bytes32 (y.drop 32)) = y.drop 32 :=
  ⟨ofFn_bytes32 _ (by rw [List.length_take]; omega), ofFn_bytes32 _ (by rw [List.length_drop]; omega)⟩

/-- Decryption with the secret key from the random bytes `r2`. -/
def decryption (P : PSet) (r2 : Bytes 32) (c : List Byte) : Bytes 32 := bytes32 (pkeDec (params P) (pkeKeyGenSk (params P) (List.ofFn r2)) c)
/-- The same for uSaber and the 90s variants. -/
def decryptionU (f : U.Cfg) (r2 : Bytes 32) (c : List Byte) : Bytes 32 := bytes32 (USpec.pkeDec (variant f) (USpec.pkeKeyGenSk (variant f) (List.ofFn r2)) c)

/-- Key generation returns `pk`; encapsulation returns `c` and `k`; and decapsulation of every `x` with the secret key of `pk` returns `dec x`, when the generator
returns `r1`, `r2` and `z` for the key and `u` for the encapsulation, with the reference implementation. -/
def kemRuns (P : PSet) (pkb skb cb kb : List Byte) (r1 r2 z u : Bytes 32) (pk c : List Byte) (k : Bytes 32) (dec : List Byte → Bytes 32) : Prop :=
  ∃ sk st st', crypto_kem_keypair P tapeRng pkb skb (List.ofFn r1 ++ List.ofFn r2 ++ List.ofFn z, []) = .ok (0, pk, sk, st) ∧
    crypto_kem_enc P tapeRng cb kb pk (List.ofFn u, []) = .ok (0, c, List.ofFn k, st') ∧
    ∀ x, x.length = P.BYTES_CCA_DEC → crypto_kem_dec P kb x sk = .ok (0, List.ofFn (dec x))
/-- The same with uSaber or a 90s variant. -/
def kemRunsU (f : U.Cfg) (pkb skb cb kb : List Byte) (r1 r2 z u : Bytes 32) (pk c : List Byte) (k : Bytes 32) (dec : List Byte → Bytes 32) : Prop :=
  ∃ sk st st', U.crypto_kem_keypair f tapeRng pkb skb (List.ofFn r1 ++ List.ofFn r2 ++ List.ofFn z, []) = .ok (0, pk, sk, st) ∧
    U.crypto_kem_enc f tapeRng cb kb pk (List.ofFn u, []) = .ok (0, c, List.ofFn k, st') ∧
    ∀ x, x.length = f.BYTES_CCA_DEC → U.crypto_kem_dec f kb x sk = .ok (0, List.ofFn (dec x))

theorem delivers_three (r1 r2 z : Bytes 32) : Delivers tapeRng 32 (List.ofFn r1 ++ List.ofFn r2 ++ List.ofFn z, []) (List.ofFn r1) (List.ofFn r2 ++ List.ofFn z, [32]) ∧
    Delivers tapeRng 32 (List.ofFn r2 ++ List.ofFn z, [32]) (List.ofFn r2) (List.ofFn z, [32, 32]) ∧
    Delivers tapeRng 32 (List.ofFn z, [32, 32]) (List.ofFn z) ([], [32, 32, 32]) := by
  have l1 : (List.ofFn r1).length = 32 := List.length_ofFn
  have l2 : (List.ofFn r2).length = 32 := List.length_ofFn
  have l3 : (List.ofFn z).length = 32 := List.length_ofFn
  have d1 := tapeRng_delivers 32 (List.ofFn r1 ++ (List.ofFn r2 ++ List.ofFn z)) [] (by simp)
  have d2 := tapeRng_delivers 32 (List.ofFn r2 ++ List.ofFn z) [32] (by simp)
  have d3 := tapeRng_delivers 32 (List.ofFn z) [32, 32] (by simp)
  rw [List.take_append_of_le_length (by omega), List.take_of_length_le (by omega), List.drop_append_of_le_length (by omega),
    List.drop_of_length_le (by omega), List.nil_append] at d1 d2
  rw [List.take_of_length_le (by omega), List.drop_of_length_le (by omega)] at d3
  rw [List.append_assoc]
  exact ⟨d1, d2, d3⟩

theorem delivers_one (u : Bytes 32) : Delivers tapeRng 32 (List.ofFn u, []) (List.ofFn u) ([], [32]) := by
  have d3 := tapeRng_delivers 32 (List.ofFn u) [] (by simp)
  rw [List.take_of_length_le (by simp), List.drop_of_length_le (by simp)] at d3
  exact d3

theorem ofFn_hash (x : List Byte) : List.ofFn (hashOf USpec.fips202 x) = Keccak.sha3_256 x := ofFn_bytes32 _ (length_sha3_256 _)

theorem realKey_saber (P : PSet) (r1 r2 : Bytes 32) : (saberPke (params P)).realKey r1 r2 = kemPk (params P) (List.ofFn r1) (List.ofFn r2) := by
  unfold Pke.realKey Pke.key kemPk pkeKeyGenPk pubVec saberPke roundP roundTo10 Spec.h1
  norm_num

/-- C81: the code computes what the games compute: key generation, encapsulation and decapsulation are those of the games, with SHA3-512 as the function for first key
and coins and SHA3-256 as the function for the shared secret. -/
theorem C81_code (P : PSet) (pkb skb cb kb : List Byte) (hpk : pkb.length = P.PUBLICKEYBYTES) (hsk : skb.length = P.SECRETKEYBYTES)
    (hc : cb.length = P.BYTES_CCA_DEC) (hk : kb.length = 32) (r1 r2 z u : Bytes 32) :
    let S := saberPke (params P)
    let h := hashOf USpec.fips202
    let G := coinsOf USpec.fips202
    let F := finalOf USpec.fips202
    let pk := S.realKey r1 r2
    kemRuns P pkb skb cb kb r1 r2 z u pk (cipher S h G pk u) (F ((firstKey h G pk u).1, h (cipher S h G pk u))) (decapsWith S h G F pk (decryption P r2) z) := by
  intro S h G F pk
  obtain ⟨d1, d2, d3⟩ := delivers_three r1 r2 z
  have kg := C01_keypair_spec P tapeRng _ _ _ _ _ _ _ d1 d2 d3 pkb skb hpk hsk
  have lz : (List.ofFn z).length = 32 := List.length_ofFn
  have lpk : (kemPk (params P) (List.ofFn r1) (List.ofFn r2)).length = P.PUBLICKEYBYTES := by rw [length_kemPk, params_eq]; rfl
  have lsk : (kemSk (params P) (List.ofFn r1) (List.ofFn r2) (List.ofFn z)).length = P.SECRETKEYBYTES := by
    unfold kemSk
    rw [List.length_append, List.length_append, List.length_append, length_pkeKeyGenSk, length_kemPk, length_sha3_256, lz, params_eq]; rfl
  have en := C02_enc_spec P tapeRng _ _ _ (delivers_one u) cb kb _ hc hk lpk
  have hpk : pk = kemPk (params P) (List.ofFn r1) (List.ofFn r2) := realKey_saber P r1 r2
  have hcoins (x y : Bytes 32) : List.ofFn (G (x, y)).1 = (kemKr (List.ofFn x) (List.ofFn y)).take 32 ∧
      List.ofFn (G (x, y)).2 = (kemKr (List.ofFn x) (List.ofFn y)).drop 32 := by
    have l := length_sha3_512 (List.ofFn x ++ List.ofFn y)
    have l : (kemKr (List.ofFn x) (List.ofFn y)).length = 64 := l
    exact ofFn_halves _ l
  have hF (k : Bytes 32) (c : List Byte) : List.ofFn (F (k, h c)) = kemKey (List.ofFn k) c := by
    show List.ofFn (bytes32 (Keccak.sha3_256 (List.ofFn k ++ List.ofFn (hashOf USpec.fips202 c)))) = _
    rw [ofFn_bytes32 _ (length_sha3_256 _), ofFn_hash]
    rfl
  have hcc : cipher S h G pk u = encapsC (params P) (List.ofFn u) pk := by
    unfold cipher firstKey encapsC
    rw [(hcoins _ _).2, ofFn_hash, ofFn_hash, saberPke_enc]
  refine ⟨kemSk (params P) (List.ofFn r1) (List.ofFn r2) (List.ofFn z), ([], [32, 32, 32]), ([], [32]), ?_, ?_, fun x hx => ?_⟩
  · rw [hpk]; exact kg
  · rw [hF, hcc]
    unfold firstKey
    rw [(hcoins _ _).1, ofFn_hash, ofFn_hash, hpk]
    exact en
  · rw [C03_dec_spec P kb x _ hk hx lsk]
    have hd : List.ofFn (decryption P r2 x) = decapsM (params P) (kemSk (params P) (List.ofFn r1) (List.ofFn r2) (List.ofFn z)) x := by
      unfold decryption decapsM
      rw [skCpa_kemSk]
      exact ofFn_bytes32 _ (length_pack _ _)
    have hkr : kemKr (List.ofFn (decryption P r2 x)) (List.ofFn (h pk)) = decapsKr (params P) (kemSk (params P) (List.ofFn r1) (List.ofFn r2) (List.ofFn z)) x := by
      unfold decapsKr
      rw [skHpk_kemSk, ← hd, ofFn_hash, hpk]
    have hre : S.enc (List.ofFn (decryption P r2 x)) (List.ofFn (G (decryption P r2 x, h pk)).2) pk =
        reEncrypt (params P) (kemSk (params P) (List.ofFn r1) (List.ofFn r2) (List.ofFn z)) x := by
      unfold reEncrypt
      rw [(hcoins _ _).2, hkr, saberPke_enc, skPk_kemSk, ← hd, hpk]
    have key : decaps (params P) (kemSk (params P) (List.ofFn r1) (List.ofFn r2) (List.ofFn z)) x = List.ofFn (decapsWith S h G F pk (decryption P r2) z x) := by
      unfold decaps decapsWith
      dsimp only
      rw [hre, skZ_kemSk _ _ _ _ lz]
      by_cases hx : reEncrypt (params P) (kemSk (params P) (List.ofFn r1) (List.ofFn r2) (List.ofFn z)) x = x
      · rw [if_pos hx.symm, if_pos hx, hF, (hcoins _ _).1, hkr]
      · rw [if_neg (fun e => hx e.symm), if_neg hx, hF]
    rw [key]

theorem ofFn_hashU (f : U.Cfg) (x : List Byte) : List.ofFn (hashOf f.sym x) = f.sym.H x := ofFn_bytes32 _ (U.length_H f _)

/-- C81: the same for uSaber and the 90s variants, with the hash functions of the variant. -/
theorem C81_code_variants (f : U.Cfg) (pkb skb cb kb : List Byte) (hpk : pkb.length = f.PUBLICKEYBYTES) (hsk : skb.length = f.SECRETKEYBYTES)
    (hc : cb.length = f.BYTES_CCA_DEC) (hk : kb.length = 32) (r1 r2 z u : Bytes 32) :
    let S := uPke (variant f)
    let h := hashOf (variant f).sym
    let G := coinsOf (variant f).sym
    let F := finalOf (variant f).sym
    let pk := S.realKey r1 r2
    kemRunsU f pkb skb cb kb r1 r2 z u pk (cipher S h G pk u) (F ((firstKey h G pk u).1, h (cipher S h G pk u))) (decapsWith S h G F pk (decryptionU f r2) z) := by
  intro S h G F pk
  obtain ⟨d1, d2, d3⟩ := delivers_three r1 r2 z
  have kg := C35_keypair_spec f tapeRng _ _ _ _ _ _ _ d1 d2 d3 pkb skb hpk hsk
  have lz : (List.ofFn z).length = 32 := List.length_ofFn
  have lr : (List.ofFn r1).length = 32 := List.length_ofFn
  have lpk := length_variantPk f (List.ofFn r1) (List.ofFn r2) lr
  have lsk := length_variantSk f (List.ofFn r1) (List.ofFn r2) (List.ofFn z) lr lz
  have en := C35_enc_spec f tapeRng _ _ _ (delivers_one u) cb kb _ hc hk lpk
  have hpk : pk = USpec.kemPk (variant f) (List.ofFn r1) (List.ofFn r2) := rfl
  have hv : (variant f).sym = f.sym := by rw [variant_eq]
  have hh (x : List Byte) : List.ofFn (h x) = (variant f).sym.H x := by
    show List.ofFn (hashOf (variant f).sym x) = _
    rw [hv, ofFn_hashU]
  have hcoins (x y : Bytes 32) : List.ofFn (G (x, y)).1 = (USpec.kemKr (variant f) (List.ofFn x) (List.ofFn y)).take 32 ∧
      List.ofFn (G (x, y)).2 = (USpec.kemKr (variant f) (List.ofFn x) (List.ofFn y)).drop 32 := by
    have l : (USpec.kemKr (variant f) (List.ofFn x) (List.ofFn y)).length = 64 := by unfold USpec.kemKr; rw [hv]; exact U.length_G f _
    exact ofFn_halves _ l
  have hF (k : Bytes 32) (c : List Byte) : List.ofFn (F (k, h c)) = USpec.kemKey (variant f) (List.ofFn k) c := by
    show List.ofFn (bytes32 ((variant f).sym.H (List.ofFn k ++ List.ofFn (h c)))) = _
    rw [ofFn_bytes32 _ (by rw [hv]; exact U.length_H f _), hh]
    rfl
  have hcc : cipher S h G pk u = USpec.encapsC (variant f) (List.ofFn u) pk := by
    unfold cipher firstKey USpec.encapsC
    rw [(hcoins _ _).2, hh, hh, uPke_enc]
  refine ⟨USpec.kemSk (variant f) (List.ofFn r1) (List.ofFn r2) (List.ofFn z), ([], [32, 32, 32]), ([], [32]), ?_, ?_, fun x hx => ?_⟩
  · rw [hpk]; exact kg
  · rw [hF, hcc]
    unfold firstKey
    rw [(hcoins _ _).1, hh, hh, hpk]
    exact en
  · rw [C35_dec_spec f kb x _ hk hx lsk]
    have hd : List.ofFn (decryptionU f r2 x) = USpec.decapsM (variant f) (USpec.kemSk (variant f) (List.ofFn r1) (List.ofFn r2) (List.ofFn z)) x := by
      unfold decryptionU USpec.decapsM
      rw [variant_eq, U.skCpa_kemSk]
      exact ofFn_bytes32 _ (U.length_pkeDec f _ _)
    have hkr : USpec.kemKr (variant f) (List.ofFn (decryptionU f r2 x)) (List.ofFn (h pk)) =
        USpec.decapsKr (variant f) (USpec.kemSk (variant f) (List.ofFn r1) (List.ofFn r2) (List.ofFn z)) x := by
      unfold USpec.decapsKr
      rw [← hd, hh, hpk, hv]
      simp only [variant_eq]
      rw [U.skHpk_kemSk f _ _ _ lr]
    have hre : S.enc (List.ofFn (decryptionU f r2 x)) (List.ofFn (G (decryptionU f r2 x, h pk)).2) pk =
        USpec.reEncrypt (variant f) (USpec.kemSk (variant f) (List.ofFn r1) (List.ofFn r2) (List.ofFn z)) x := by
      unfold USpec.reEncrypt
      rw [(hcoins _ _).2, hkr, uPke_enc, ← hd, hpk]
      simp only [variant_eq]
      rw [U.skPk_kemSk f _ _ _ lr]
    have hz : USpec.skZ (variant f) (USpec.kemSk (variant f) (List.ofFn r1) (List.ofFn r2) (List.ofFn z)) = List.ofFn z := by
      simp only [variant_eq]
      exact U.skZ_kemSk f _ _ _ lr lz
    have key : USpec.decaps (variant f) (USpec.kemSk (variant f) (List.ofFn r1) (List.ofFn r2) (List.ofFn z)) x =
        List.ofFn (decapsWith S h G F pk (decryptionU f r2) z x) := by
      unfold USpec.decaps decapsWith
      dsimp only
      rw [hre, hz]
      by_cases hx : USpec.reEncrypt (variant f) (USpec.kemSk (variant f) (List.ofFn r1) (List.ofFn r2) (List.ofFn z)) x = x
      · rw [if_pos hx.symm, if_pos hx, hF, (hcoins _ _).1, hkr]
      · rw [if_neg (fun e => hx e.symm), if_neg hx, hF]
    rw [key]

/-! ### Eavesdroppers -/

theorem le_hitOf (h : List Byte → Bytes 32) (w : Bytes 32) : fraction (fun u : Bytes 32 => h (List.ofFn u) = w) ≤ hitOf h := Ind.le_maxOver _ w

theorem sees_bound (S : Pke) (hq : S.eq = 12 ∨ S.eq = 13) (hT : S.eT ≤ 7) (h : List Byte → Bytes 32) {Ω : Type} [Fintype Ω] [Nonempty Ω] (A : Eavesdropper Ω) (q : Nat)
    (q0 : 0 < q) (hA : ∀ ω pk c k, (A ω pk c k).AtMost q) :
    |fraction (fun d : (Ω × Bytes 32 × Bytes 32 × Bytes 32) × (Pair32 → Pair32) => seesKey S h A d.1.1 d.1.2.1 d.1.2.2.1 d.1.2.2.2 d.2) -
      fraction (fun d : ((Ω × Bytes 32 × Bytes 32 × Bytes 32) × (Pair32 → Pair32)) × Bytes 32 =>
        seesOther S h A d.1.1.1 d.1.1.2.1 d.1.1.2.2.1 d.1.1.2.2.2 d.1.2 d.2)| ≤
    2 * q * (hitOf h + 2 * (keyAdvantage S (keyAttack S (recoverAttacker (fun u => List.ofFn (h (List.ofFn u))) (questionOf A q))) +
      encAdvantage S (encAttack S (recoverAttacker (fun u => List.ofFn (h (List.ofFn u))) (questionOf A q))))) :=
  Rom.eaves_bound S hq hT h _ (le_hitOf h) A q q0 hA

/-- C81: an eavesdropper with at most `q` questions to the random function for first keys and coins cannot tell the first key of an encapsulation from a random string better
than this: `2q` times the probability of the most frequent hash of 32 random bytes and twice the two advantages in the rounding problems.  `h` is SHA3-256; SHA3-512 is the
random function. -/
theorem C81_first_key (P : PSet) {Ω : Type} [Fintype Ω] [Nonempty Ω] (A : Eavesdropper Ω) (q : Nat) (q0 : 0 < q) (hA : ∀ ω pk c k, (A ω pk c k).AtMost q) :
    let S := saberPke (params P)
    let h := hashOf USpec.fips202
    let R := recoverAttacker (fun u => List.ofFn (h (List.ofFn u))) (questionOf A q)
    |fraction (fun d : (Ω × Bytes 32 × Bytes 32 × Bytes 32) × (Pair32 → Pair32) => seesKey S h A d.1.1 d.1.2.1 d.1.2.2.1 d.1.2.2.2 d.2) -
      fraction (fun d : ((Ω × Bytes 32 × Bytes 32 × Bytes 32) × (Pair32 → Pair32)) × Bytes 32 =>
        seesOther S h A d.1.1.1 d.1.1.2.1 d.1.1.2.2.1 d.1.1.2.2.2 d.1.2 d.2)| ≤
    2 * q * (hitOf h + 2 * (keyAdvantage S (keyAttack S R) + encAdvantage S (encAttack S R))) := by
  rw [params_eq]
  exact sees_bound (saberPke P.spec) (.inr rfl) (ET_le P) _ A q q0 hA

/-- C81: the same for uSaber and the 90s variants. -/
theorem C81_first_key_variants (f : U.Cfg) {Ω : Type} [Fintype Ω] [Nonempty Ω] (A : Eavesdropper Ω) (q : Nat) (q0 : 0 < q) (hA : ∀ ω pk c k, (A ω pk c k).AtMost q) :
    let S := uPke (variant f)
    let h := hashOf (variant f).sym
    let R := recoverAttacker (fun u => List.ofFn (h (List.ofFn u))) (questionOf A q)
    |fraction (fun d : (Ω × Bytes 32 × Bytes 32 × Bytes 32) × (Pair32 → Pair32) => seesKey S h A d.1.1 d.1.2.1 d.1.2.2.1 d.1.2.2.2 d.2) -
      fraction (fun d : ((Ω × Bytes 32 × Bytes 32 × Bytes 32) × (Pair32 → Pair32)) × Bytes 32 =>
        seesOther S h A d.1.1.1 d.1.1.2.1 d.1.1.2.2.1 d.1.1.2.2.2 d.1.2 d.2)| ≤
    2 * q * (hitOf h + 2 * (keyAdvantage S (keyAttack S R) + encAdvantage S (encAttack S R))) := by
  rw [variant_eq]
  exact sees_bound (uPke f.spec) (U_eq f) (U_ET_le f) _ A q q0 hA

/-- C81: the shared secret that the eavesdropper of the next theorem sees is, with the hash function in the place of the random function, the
one that `crypto_kem_enc` returns. -/
theorem C81_secret_code (P : PSet) (pkb skb cb kb : List Byte) (hpk : pkb.length = P.PUBLICKEYBYTES) (hsk : skb.length = P.SECRETKEYBYTES)
    (hc : cb.length = P.BYTES_CCA_DEC) (hk : kb.length = 32) (r1 r2 z u : Bytes 32) :
    let S := saberPke (params P)
    let h := hashOf USpec.fips202
    let G := coinsOf USpec.fips202
    let pk := S.realKey r1 r2
    kemRuns P pkb skb cb kb r1 r2 z u pk (cipher S h G pk u) (secretOf h (firstKey h G pk u).1 (cipher S h G pk u))
      (decapsWith S h G (finalOf USpec.fips202) pk (decryption P r2) z) :=
  C81_code P pkb skb cb kb hpk hsk hc hk r1 r2 z u

/-- C81: the same for uSaber and the 90s variants. -/
theorem C81_secret_code_variants (f : U.Cfg) (pkb skb cb kb : List Byte) (hpk : pkb.length = f.PUBLICKEYBYTES) (hsk : skb.length = f.SECRETKEYBYTES)
    (hc : cb.length = f.BYTES_CCA_DEC) (hk : kb.length = 32) (r1 r2 z u : Bytes 32) :
    let S := uPke (variant f)
    let h := hashOf (variant f).sym
    let G := coinsOf (variant f).sym
    let pk := S.realKey r1 r2
    kemRunsU f pkb skb cb kb r1 r2 z u pk (cipher S h G pk u) (secretOf h (firstKey h G pk u).1 (cipher S h G pk u))
      (decapsWith S h G (finalOf (variant f).sym) pk (decryptionU f r2) z) :=
  C81_code_variants f pkb skb cb kb hpk hsk hc hk r1 r2 z u

theorem secret_bound (S : Pke) (hq : S.eq = 12 ∨ S.eq = 13) (hT : S.eT ≤ 7) (h : List Byte → Bytes 32) {Ω : Type} [Fintype Ω] [Nonempty Ω] (A : Eavesdropper Ω) (q : Nat)
    (q0 : 0 < q) (hA : ∀ ω pk c k, (A ω pk c k).AtMost q) :
    |fraction (fun d : (Ω × Bytes 32 × Bytes 32 × Bytes 32) × (Pair32 → Pair32) => seesSecret S h A d.1.1 d.1.2.1 d.1.2.2.1 d.1.2.2.2 d.2) -
      fraction (fun d : ((Ω × Bytes 32 × Bytes 32 × Bytes 32) × (Pair32 → Pair32)) × Bytes 32 =>
        seesOtherSecret S h A d.1.1.1 d.1.1.2.1 d.1.1.2.2.1 d.1.1.2.2.2 d.1.2 d.2)| ≤
    2 * q * (hitOf h + 2 * (keyAdvantage S (keyAttack S (recoverAttacker (fun u => List.ofFn (h (List.ofFn u))) (questionOf (hashing h A) q))) +
      encAdvantage S (encAttack S (recoverAttacker (fun u => List.ofFn (h (List.ofFn u))) (questionOf (hashing h A) q))))) :=
  sees_bound S hq hT h (hashing h A) q q0 fun ω pk c k => hA ω pk c _

/-- C81: the same for an eavesdropper who sees the shared secret, which is the hash of the first key and the hash of the ciphertext: it cannot tell it from the hash of a random
string and the hash of the ciphertext. -/
theorem C81_shared_secret (P : PSet) {Ω : Type} [Fintype Ω] [Nonempty Ω] (A : Eavesdropper Ω) (q : Nat) (q0 : 0 < q) (hA : ∀ ω pk c k, (A ω pk c k).AtMost q) :
    let S := saberPke (params P)
    let h := hashOf USpec.fips202
    let R := recoverAttacker (fun u => List.ofFn (h (List.ofFn u))) (questionOf (hashing h A) q)
    |fraction (fun d : (Ω × Bytes 32 × Bytes 32 × Bytes 32) × (Pair32 → Pair32) => seesSecret S h A d.1.1 d.1.2.1 d.1.2.2.1 d.1.2.2.2 d.2) -
      fraction (fun d : ((Ω × Bytes 32 × Bytes 32 × Bytes 32) × (Pair32 → Pair32)) × Bytes 32 =>
        seesOtherSecret S h A d.1.1.1 d.1.1.2.1 d.1.1.2.2.1 d.1.1.2.2.2 d.1.2 d.2)| ≤
    2 * q * (hitOf h + 2 * (keyAdvantage S (keyAttack S R) + encAdvantage S (encAttack S R))) := by
  rw [params_eq]
  exact secret_bound (saberPke P.spec) (.inr rfl) (ET_le P) _ A q q0 hA

/-- C81: the same for uSaber and the 90s variants. -/
theorem C81_shared_secret_variants (f : U.Cfg) {Ω : Type} [Fintype Ω] [Nonempty Ω] (A : Eavesdropper Ω) (q : Nat) (q0 : 0 < q)
    (hA : ∀ ω pk c k, (A ω pk c k).AtMost q) :
    let S := uPke (variant f)
    let h := hashOf (variant f).sym
    let R := recoverAttacker (fun u => List.ofFn (h (List.ofFn u))) (questionOf (hashing h A) q)
    |fraction (fun d : (Ω × Bytes 32 × Bytes 32 × Bytes 32) × (Pair32 → Pair32) => seesSecret S h A d.1.1 d.1.2.1 d.1.2.2.1 d.1.2.2.2 d.2) -
      fraction (fun d : ((Ω × Bytes 32 × Bytes 32 × Bytes 32) × (Pair32 → Pair32)) × Bytes 32 =>
        seesOtherSecret S h A d.1.1.1 d.1.1.2.1 d.1.1.2.2.1 d.1.1.2.2.2 d.1.2 d.2)| ≤
    2 * q * (hitOf h + 2 * (keyAdvantage S (keyAttack S R) + encAdvantage S (encAttack S R))) := by
  rw [variant_eq]
  exact secret_bound (uPke f.spec) (U_eq f) (U_ET_le f) _ A q q0 hA

/-- An eavesdropper who asks one question, for the first half of the public key and of the ciphertext, and compares the answer with what it sees. -/
def sampleEavesdropper : Eavesdropper Unit := fun _ pk c k => .ask (bytes32 pk, bytes32 c) fun v => .ret (decide (v.1 = k))

theorem sampleEavesdropper_asks (ω : Unit) (pk c : List Byte) (k : Bytes 32) : (sampleEavesdropper ω pk c k).AtMost 1 := fun _ => Nat.le_refl 1

example := C81_first_key .saber sampleEavesdropper 1 Nat.one_pos sampleEavesdropper_asks
example := C81_shared_secret_variants ⟨.fire, true, true⟩ sampleEavesdropper 1 Nat.one_pos sampleEavesdropper_asks

/-! ### Attackers who may have ciphertexts decapsulated -/

theorem attack_bound (S : Pke) (hq : S.eq = 12 ∨ S.eq = 13) (hT : S.eT ≤ 7) (dec : Bytes 32 → List Byte → Bytes 32) (h : List Byte → Bytes 32) {Ω : Type} [Fintype Ω]
    [Nonempty Ω] (A : CcaAttacker Ω) (qG qF qD : Nat) (q0 : 0 < qG) (hA : ∀ ω pk c k, (A ω pk c k).AtMost qG qF qD) :
    |fraction (fun w : World Ω => ccaReal S dec h A w) - fraction (fun w : World Ω × Bytes 32 => ccaOther S dec h A w.1 w.2)| ≤
      2 * qG * (hitOf h + 2 * (keyAdvantage S (keyAttack S (recoverAttacker (fun u => List.ofFn (h (List.ofFn u))) (questionOf (simEavesdropper S h A) qG))) +
        encAdvantage S (encAttack S (recoverAttacker (fun u => List.ofFn (h (List.ofFn u))) (questionOf (simEavesdropper S h A) qG))))) +
      2 * (qG * mean (fun r : Pair32 => failureOf S dec r.1 r.2) + qD * mean (fun r : Pair32 => repeatOf S r.1 r.2)) +
      (3 * (qF + qD) + 1) / 2 ^ 256 :=
  Ind.cca_bound S dec h A hq hT _ (le_hitOf h) qG qF qD q0 hA

/-- C82: an attacker who sees a public key, a ciphertext and a string of 32 bytes, and may have every other ciphertext decapsulated with the secret key, cannot tell
whether the string is the shared secret of the ciphertext or random, better than this.  The attacker asks at most `qG` questions to the random function for first keys and coins,
`qF` questions to the random function for shared secrets and `qD` questions for decapsulation; `failureOf` is the probability of wrong decryption of the worst message,
`repeatOf` that of the most frequent ciphertext of a message.  `h` is SHA3-256 on inputs that do not have 64 bytes. -/
theorem C82_chosen_ciphertexts (P : PSet) {Ω : Type} [Fintype Ω] [Nonempty Ω] (A : CcaAttacker Ω) (qG qF qD : Nat) (q0 : 0 < qG)
    (hA : ∀ ω pk c k, (A ω pk c k).AtMost qG qF qD) :
    let S := saberPke (params P)
    let h := hashOf USpec.fips202
    let dec := decryption P
    let R := recoverAttacker (fun u => List.ofFn (h (List.ofFn u))) (questionOf (simEavesdropper S h A) qG)
    |fraction (fun w : World Ω => ccaReal S dec h A w) - fraction (fun w : World Ω × Bytes 32 => ccaOther S dec h A w.1 w.2)| ≤
      2 * qG * (hitOf h + 2 * (keyAdvantage S (keyAttack S R) + encAdvantage S (encAttack S R))) +
      2 * (qG * mean (fun r : Pair32 => failureOf S dec r.1 r.2) + qD * mean (fun r : Pair32 => repeatOf S r.1 r.2)) +
      (3 * (qF + qD) + 1) / 2 ^ 256 := by
  rw [params_eq]
  exact attack_bound (saberPke P.spec) (.inr rfl) (ET_le P) (decryption P) _ A qG qF qD q0 hA

/-- C82: the same for uSaber and the 90s variants. -/
theorem C82_chosen_ciphertexts_variants (f : U.Cfg) {Ω : Type} [Fintype Ω] [Nonempty Ω] (A : CcaAttacker Ω) (qG qF qD : Nat) (q0 : 0 < qG)
    (hA : ∀ ω pk c k, (A ω pk c k).AtMost qG qF qD) :
    let S := uPke (variant f)
    let h := hashOf (variant f).sym
    let dec := decryptionU f
    let R := recoverAttacker (fun u => List.ofFn (h (List.ofFn u))) (questionOf (simEavesdropper S h A) qG)
    |fraction (fun w : World Ω => ccaReal S dec h A w) - fraction (fun w : World Ω × Bytes 32 => ccaOther S dec h A w.1 w.2)| ≤
      2 * qG * (hitOf h + 2 * (keyAdvantage S (keyAttack S R) + encAdvantage S (encAttack S R))) +
      2 * (qG * mean (fun r : Pair32 => failureOf S dec r.1 r.2) + qD * mean (fun r : Pair32 => repeatOf S r.1 r.2)) +
      (3 * (qF + qD) + 1) / 2 ^ 256 := by
  rw [variant_eq]
  exact attack_bound (uPke f.spec) (U_eq f) (U_ET_le f) (decryptionU f) _ A qG qF qD q0 hA

/-- An attacker who changes the last byte of the ciphertext, has the result decapsulated, asks both functions for what it has got, and compares. -/
def sampleCca : CcaAttacker Unit := fun _ pk c k => .askD (c.set (c.length - 1) 0) fun b => .askG (b, bytes32 pk) fun v => .askF (v.1, k) fun d => .ret (decide (d = k))

theorem sampleCca_asks (ω : Unit) (pk c : List Byte) (k : Bytes 32) : (sampleCca ω pk c k).AtMost 1 1 1 :=
  ⟨Nat.one_pos, fun _ => ⟨Nat.one_pos, fun _ => ⟨Nat.one_pos, fun _ => trivial⟩⟩⟩

example := C82_chosen_ciphertexts .saber sampleCca 1 1 1 Nat.one_pos sampleCca_asks
example := C82_chosen_ciphertexts_variants ⟨.light, false, true⟩ sampleCca 1 1 1 Nat.one_pos sampleCca_asks

end Saber.Props
