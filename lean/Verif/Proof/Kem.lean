import Verif.Model.Kem
import Verif.Proof.Indcpa
import Verif.Proof.Verify
/-!
# Proofs about `kem.c`
-/
namespace Saber
open Spec

theorem PK_eq (P : PSet) : P.INDCPA_PUBLICKEYBYTES = P.L * 320 + 32 := rfl
theorem SK_eq (P : PSet) : P.INDCPA_SECRETKEYBYTES = P.L * 416 := rfl
theorem KSK_eq (P : PSet) : P.SECRETKEYBYTES = P.L * 416 + (P.L * 320 + 32) + 32 + 32 := rfl
theorem CT_eq (P : PSet) : P.BYTES_CCA_DEC = P.L * 320 + 32 * P.ET := by cases P <;> rfl

theorem length_pkeKeyGenPk [Keccak.Permutation] (P : Params) (a b : List Byte) : (pkeKeyGenPk P a b).length = P.l * 320 + a.length := by
  unfold pkeKeyGenPk
  rw [List.length_append, length_packVec]

theorem length_pkeKeyGenSk [Keccak.Permutation] (P : Params) (b : List Byte) : (pkeKeyGenSk P b).length = P.l * 416 := length_packVec _ _ _

theorem length_pkeEnc (P : Params) (m s pk : List Byte) : (pkeEnc P m s pk).length = P.l * 320 + 32 * P.eT := by
  unfold pkeEnc
  rw [List.length_append, length_packVec, length_pack]

theorem length_pkeDec (P : Params) (sk c : List Byte) : (pkeDec P sk c).length = 32 := length_pack _ _

theorem length_kemPk [Keccak.Permutation] (P : Params) (a b : List Byte) : (kemPk P a b).length = P.l * 320 + 32 := by
  unfold kemPk; rw [length_pkeKeyGenPk, length_shake128]

/-- A write directly behind an earlier one. -/
theorem writeAt_after {α : Type} (a : List α) (off n : Nat) (us vs : List α) (hn : n = off + us.length)
    (h : off + us.length + vs.length ≤ a.length) : writeAt (writeAt a off us) n vs = writeAt a off (us ++ vs) := by
  subst hn; exact writeAt_append a off us vs h

theorem crypto_kem_keypair_ok {σ : Type} (P : PSet) (rb : RandomBytes σ) (st st1 st2 st3 : σ) (r1 r2 z : List Byte)
    (h1 : Delivers rb 32 st r1 st1) (h2 : Delivers rb 32 st1 r2 st2) (h3 : Delivers rb 32 st2 z st3)
    (pk sk : List Byte) (hpk : pk.length = P.PUBLICKEYBYTES) (hsk : sk.length = P.SECRETKEYBYTES) :
    crypto_kem_keypair P rb pk sk st = .ok (0, kemPk P.spec r1 r2, kemSk P.spec r1 r2 z, st3) := by
  have k1 := PK_eq P
  have k2 := SK_eq P
  have k3 := KSK_eq P
  unfold crypto_kem_keypair
  rw [indcpa_keypair_ok P rb st st1 st2 r1 r2 h1 h2 pk sk hpk (by omega), ok_bind]
  dsimp only
  obtain ⟨hl3, hr3⟩ := h3
  change (_ : List Byte).length = P.INDCPA_PUBLICKEYBYTES at hpk
  have e0 : pkeKeyGenPk P.spec (Keccak.shake128 r1 32) r2 = kemPk P.spec r1 r2 := rfl
  have l1 : (kemPk P.spec r1 r2).length = P.L * 320 + 32 := length_kemPk _ _ _
  have l2 : (pkeKeyGenSk P.spec r2).length = P.L * 416 := length_pkeKeyGenSk _ _
  rw [e0]
  have hloop := copyLoop_ok (writeAt sk 0 (pkeKeyGenSk P.spec r2)) P.INDCPA_SECRETKEYBYTES (kemPk P.spec r1 r2) P.INDCPA_PUBLICKEYBYTES
    (by omega) (by rw [length_writeAt _ _ _ (by omega)]; omega)
  simp only [Nat.add_comm P.INDCPA_SECRETKEYBYTES] at hloop
  rw [hloop, ok_bind, List.take_of_length_le (by omega), writeAt_after _ _ _ _ _ (by omega) (by omega)]
  have l3 : (pkeKeyGenSk P.spec r2 ++ kemPk P.spec r1 r2).length = P.L * 416 + (P.L * 320 + 32) := by rw [List.length_append]; omega
  rw [sha3_256_ok _ _ _ _ _ (by rw [length_writeAt _ _ _ (by omega)]; omega) (by omega), ok_bind, List.drop_zero,
    List.take_of_length_le (by omega)]
  have l4 := length_sha3_256 (kemPk P.spec r1 r2)
  rw [writeAt_after _ _ _ _ _ (by omega) (by omega)]
  have l5 : (pkeKeyGenSk P.spec r2 ++ kemPk P.spec r1 r2 ++ Keccak.sha3_256 (kemPk P.spec r1 r2)).length = P.L * 416 + (P.L * 320 + 32) + 32 := by
    rw [List.length_append]; omega
  rw [hr3 _ _ (by rw [length_writeAt _ _ _ (by omega)]; simp only [KEYBYTES]; omega), ok_bind]
  dsimp only
  rw [writeAt_after _ _ _ _ _ (by simp only [KEYBYTES]; omega) (by omega), writeAt_full _ _ (by rw [List.length_append]; omega)]
  rfl

theorem crypto_kem_enc_ok {σ : Type} (P : PSet) (rb : RandomBytes σ) (st st1 : σ) (m0 : List Byte)
    (h1 : Delivers rb 32 st m0 st1) (c k pk : List Byte) (hc : c.length = P.BYTES_CCA_DEC) (hk : k.length = 32)
    (hpk : pk.length = P.PUBLICKEYBYTES) :
    crypto_kem_enc P rb c k pk st = .ok (0, encapsC P.spec m0 pk, encapsK P.spec m0 pk, st1) := by
  have k1 := PK_eq P
  have k3 := CT_eq P
  change pk.length = P.INDCPA_PUBLICKEYBYTES at hpk
  obtain ⟨hl, hr⟩ := h1
  unfold crypto_kem_enc
  dsimp only
  rw [hr _ _ (by simp), ok_bind]
  dsimp only
  have lw : (writeAt (uninit 8 61 64) 0 m0).length = 64 := by rw [length_writeAt _ _ _ (by simp; omega)]; simp
  rw [sha3_256_ok _ _ _ _ _ (by omega) (by omega), ok_bind, List.drop_zero]
  have e1 : (writeAt (uninit 8 61 64) 0 m0).take 32 = m0 := by
    rw [writeAt_prefix, List.take_append_of_le_length (by omega), List.take_of_length_le (by omega)]
  rw [e1]
  have lm := length_sha3_256 m0
  have lp := length_sha3_256 pk
  rw [sha3_256_ok _ _ _ _ _ (by rw [length_writeAt _ _ _ (by omega)]; omega) (by omega), ok_bind, List.drop_zero,
    List.take_of_length_le (show pk.length ≤ P.INDCPA_PUBLICKEYBYTES by omega),
    writeAt_after _ _ _ _ _ (by omega) (by omega), writeAt_full _ _ (by rw [List.length_append]; omega)]
  have lb : (Keccak.sha3_256 m0 ++ Keccak.sha3_256 pk).length = 64 := by rw [List.length_append]; omega
  rw [sha3_512_ok _ _ _ _ _ (by simp) (by omega), ok_bind, List.drop_zero, List.take_of_length_le (by omega)]
  have lk := length_sha3_512 (Keccak.sha3_256 m0 ++ Keccak.sha3_256 pk)
  rw [writeAt_full _ _ (by simp; omega), indcpa_enc_ok P _ _ _ _ _ _ _ (by omega) (by omega) (by omega) hc, ok_bind, List.drop_zero, List.drop_zero,
    List.take_append_of_le_length (by omega), List.take_of_length_le (show (Keccak.sha3_256 m0).length ≤ 32 by omega),
    List.take_of_length_le (show pk.length ≤ P.INDCPA_PUBLICKEYBYTES by omega),
    List.take_of_length_le (show (List.drop 32 _).length ≤ 32 by rw [List.length_drop]; omega)]
  have ec : pkeEnc P.spec (Keccak.sha3_256 m0) ((Keccak.sha3_512 (Keccak.sha3_256 m0 ++ Keccak.sha3_256 pk)).drop 32) pk = encapsC P.spec m0 pk := rfl
  rw [ec]
  have lc : (encapsC P.spec m0 pk).length = P.L * 320 + 32 * P.ET := length_pkeEnc _ _ _ _
  rw [sha3_256_ok _ _ _ _ _ (by omega) (by omega), ok_bind, List.drop_zero, List.take_of_length_le (show (encapsC P.spec m0 pk).length ≤ P.BYTES_CCA_DEC by omega)]
  have lh := length_sha3_256 (encapsC P.spec m0 pk)
  rw [sha3_256_ok _ _ _ _ _ (by omega) (by rw [length_writeAt _ _ _ (by omega)]; omega), ok_bind, List.drop_zero,
    List.take_of_length_le (show (writeAt _ _ _).length ≤ 64 by rw [length_writeAt _ _ _ (by omega)]; omega),
    writeAt_full k _ (by rw [length_sha3_256]; omega)]
  have e2 : writeAt (Keccak.sha3_512 (Keccak.sha3_256 m0 ++ Keccak.sha3_256 pk)) 32 (Keccak.sha3_256 (encapsC P.spec m0 pk)) =
      (kemKr (Keccak.sha3_256 m0) (Keccak.sha3_256 pk)).take 32 ++ Keccak.sha3_256 (encapsC P.spec m0 pk) := by
    unfold writeAt
    rw [List.drop_of_length_le (by omega), List.append_nil]; rfl
  rw [e2]
  rfl

theorem crypto_kem_dec_ok (P : PSet) (k c sk : List Byte) (hk : k.length = 32) (hc : c.length = P.BYTES_CCA_DEC)
    (hsk : sk.length = P.SECRETKEYBYTES) : crypto_kem_dec P k c sk = .ok (0, decaps P.spec sk c) := by
  have k1 := PK_eq P
  have k2 := SK_eq P
  have k3 := CT_eq P
  have k4 := KSK_eq P
  unfold crypto_kem_dec
  dsimp only
  rw [indcpa_dec_ok P sk c _ (by omega) (by omega) (by simp), ok_bind, List.take_of_length_le (show c.length ≤ P.BYTES_CCA_DEC by omega)]
  have eM : pkeDec P.spec (sk.take P.INDCPA_SECRETKEYBYTES) c = decapsM P.spec sk c := rfl
  rw [eM]
  have lM : (decapsM P.spec sk c).length = 32 := length_pkeDec _ _ _
  have hl := memcpy_ok (writeAt (uninit 8 63 64) 0 (decapsM P.spec sk c)) 32 sk (P.SECRETKEYBYTES - 64) 32 (by omega)
    (by rw [length_writeAt _ _ _ (by simp; omega)]; simp)
  unfold memcpy at hl
  rw [hl, ok_bind]
  have eH : (sk.drop (P.SECRETKEYBYTES - 64)).take 32 = skHpk P.spec sk := by
    have : P.SECRETKEYBYTES - 64 = P.L * 416 + (P.L * 320 + 32) := by omega
    rw [this]; rfl
  rw [eH]
  have lH : (skHpk P.spec sk).length = 32 := by rw [← eH]; simp; omega
  rw [writeAt_after _ _ _ _ _ (by omega) (by simp; omega), writeAt_full _ _ (by simp; omega)]
  rw [sha3_512_ok _ _ _ _ _ (by simp) (by simp; omega), ok_bind, List.drop_zero, List.take_of_length_le (by simp; omega)]
  have eK : Keccak.sha3_512 (decapsM P.spec sk c ++ skHpk P.spec sk) = decapsKr P.spec sk c := rfl
  rw [eK]
  have lk : (decapsKr P.spec sk c).length = 64 := length_sha3_512 _
  rw [writeAt_full _ _ (by simp; omega), indcpa_enc_ok P _ _ _ _ _ _ _ (by simp; omega) (by omega) (by omega) (by simp), ok_bind, List.drop_zero,
    List.take_append_of_le_length (by omega), List.take_of_length_le (show (decapsM P.spec sk c).length ≤ 32 by omega),
    List.take_of_length_le (show (List.drop 32 _).length ≤ 32 by rw [List.length_drop]; omega)]
  have ec : pkeEnc P.spec (decapsM P.spec sk c) ((decapsKr P.spec sk c).drop 32) ((sk.drop P.INDCPA_SECRETKEYBYTES).take P.INDCPA_PUBLICKEYBYTES) = reEncrypt P.spec sk c := rfl
  rw [ec]
  have lc : (reEncrypt P.spec sk c).length = P.L * 320 + 32 * P.ET := length_pkeEnc _ _ _ _
  rw [verify_ok _ _ _ _ _ (by omega) (by omega), ok_bind, List.drop_zero, List.drop_zero, List.take_of_length_le (show c.length ≤ P.BYTES_CCA_DEC by omega),
    List.take_of_length_le (show (reEncrypt P.spec sk c).length ≤ P.BYTES_CCA_DEC by omega),
    sha3_256_ok _ _ _ _ _ (by omega) (by omega), ok_bind, List.drop_zero, List.take_of_length_le (show c.length ≤ P.BYTES_CCA_DEC by omega)]
  have lh := length_sha3_256 c
  have e2 : writeAt (decapsKr P.spec sk c) 32 (Keccak.sha3_256 c) = (decapsKr P.spec sk c).take 32 ++ Keccak.sha3_256 c := by
    unfold writeAt
    rw [List.drop_of_length_le (by omega), List.append_nil]
  have eZ : (sk.drop (P.SECRETKEYBYTES - KEYBYTES)).take KEYBYTES = skZ P.spec sk := by
    have : P.SECRETKEYBYTES - KEYBYTES = P.L * 416 + (P.L * 320 + 32) + 32 := by simp only [KEYBYTES]; omega
    rw [this]; rfl
  have lZ : (skZ P.spec sk).length = 32 := by rw [← eZ]; simp [KEYBYTES]; omega
  rw [e2]
  unfold decaps
  by_cases hq : c = reEncrypt P.spec sk c
  · rw [if_pos hq, if_pos hq]
    have : BitVec.ofInt 8 0 = 0 := rfl
    rw [this, cmov_zero_ok _ _ _ _ _ (by simp [KEYBYTES]; omega) (by simp only [KEYBYTES]; omega), ok_bind, sha3_256_ok _ _ _ _ _ (by omega) (by simp; omega), ok_bind,
      List.drop_zero, List.take_of_length_le (by simp; omega), writeAt_full k _ (by rw [length_sha3_256]; omega)]
    rfl
  · rw [if_neg hq, if_neg hq]
    have : BitVec.ofInt 8 1 = 1 := rfl
    rw [this, cmov_one_ok _ _ _ _ _ (by simp [KEYBYTES]; omega) (by simp only [KEYBYTES]; omega), ok_bind, eZ, sha3_256_ok _ _ _ _ _ (by omega)
      (by rw [length_writeAt _ _ _ (by simp; omega)]; simp; omega), ok_bind,
      List.drop_zero, List.take_of_length_le (by rw [length_writeAt _ _ _ (by simp; omega)]; simp; omega), writeAt_full k _ (by rw [length_sha3_256]; omega)]
    have e3 : writeAt ((decapsKr P.spec sk c).take 32 ++ Keccak.sha3_256 c) 0 (skZ P.spec sk) = skZ P.spec sk ++ Keccak.sha3_256 c := by
      rw [writeAt_prefix, List.drop_append_of_le_length (by simp; omega), List.drop_of_length_le (by simp; omega), List.nil_append]
    rw [e3]
    rfl

end Saber
