import Verif.Model.U.Kem
import Verif.Proof.U.Indcpa
import Verif.Proof.Kem
/-!
# Proofs about `kem.c` of uSaber-90s
-/
namespace Saber.U
open Spec

theorem KSK_eq (f : Cfg) : f.SECRETKEYBYTES = f.P.L * (32 * f.EQ) + (f.P.L * 320 + 32) + 32 + 32 := by
  have : f.SECRETKEYBYTES = f.INDCPA_SECRETKEYBYTES + (f.P.L * 320 + 32) + 32 + 32 := rfl
  rw [this, SK_eq]

theorem hash_h_ok1 (f : Cfg) (out : List Byte) (outOff : Nat) (inp : List Byte) (inOff inlen : Nat) (hlen : inlen < 2 ^ 61)
    (ho : outOff + 32 ≤ out.length) (hi : inOff + inlen ≤ inp.length) :
    hash_h f out outOff inp inOff inlen = .ok (writeAt out outOff (f.sym.H ((inp.drop inOff).take inlen))) :=
  hash_h_ok f out outOff inp inOff inlen ho hi hlen

theorem hash_g_ok1 (f : Cfg) (out : List Byte) (outOff : Nat) (inp : List Byte) (inOff inlen : Nat) (hlen : inlen < 2 ^ 61)
    (ho : outOff + 64 ≤ out.length) (hi : inOff + inlen ≤ inp.length) :
    hash_g f out outOff inp inOff inlen = .ok (writeAt out outOff (f.sym.G ((inp.drop inOff).take inlen))) :=
  hash_g_ok f out outOff inp inOff inlen ho hi hlen

theorem len_small (f : Cfg) : f.P.L * 320 + 32 < 2 ^ 61 ∧ f.P.L * 320 + 32 * f.P.ET < 2 ^ 61 := by
  cases f.P <;> decide

theorem length_pkeKeyGenPk (f : Cfg) (a b : List Byte) : (USpec.pkeKeyGenPk f.spec a b).length = f.P.L * 320 + a.length := by
  unfold USpec.pkeKeyGenPk
  rw [List.length_append, length_packVec]

theorem length_pkeKeyGenSk (f : Cfg) (b : List Byte) : (USpec.pkeKeyGenSk f.spec b).length = f.P.L * (32 * f.EQ) := length_packVec _ _ _

theorem length_pkeEnc (f : Cfg) (m s pk : List Byte) : (USpec.pkeEnc f.spec m s pk).length = f.P.L * 320 + 32 * f.P.ET := by
  unfold USpec.pkeEnc
  rw [List.length_append, length_packVec, length_pack]

theorem length_pkeDec (f : Cfg) (sk c : List Byte) : (USpec.pkeDec f.spec sk c).length = 32 := length_pack _ _

theorem length_kemPk (f : Cfg) (a b : List Byte) (ha : a.length = 32) : (USpec.kemPk f.spec a b).length = f.P.L * 320 + 32 := by
  unfold USpec.kemPk; rw [length_pkeKeyGenPk, length_prf _ _ _ ha]

theorem crypto_kem_keypair_ok {σ : Type} (f : Cfg) (rb : RandomBytes σ) (st st1 st2 st3 : σ) (r1 r2 z : List Byte)
    (hd1 : Delivers rb 32 st r1 st1) (hd2 : Delivers rb 32 st1 r2 st2) (h3 : Delivers rb 32 st2 z st3)
    (pk sk : List Byte) (hpk : pk.length = f.PUBLICKEYBYTES) (hsk : sk.length = f.SECRETKEYBYTES) :
    crypto_kem_keypair f rb pk sk st = .ok (0, USpec.kemPk f.spec r1 r2, USpec.kemSk f.spec r1 r2 z, st3) := by
  have k1 := PK_eq f
  have ks := len_small f
  have k2 := SK_eq f
  have k3 := KSK_eq f
  unfold crypto_kem_keypair
  rw [indcpa_keypair_ok f rb st st1 st2 r1 r2 hd1 hd2 pk sk hpk (by omega), ok_bind]
  dsimp only
  obtain ⟨hl3, hr3⟩ := h3
  change (_ : List Byte).length = f.INDCPA_PUBLICKEYBYTES at hpk
  have e0 : USpec.pkeKeyGenPk f.spec (f.sym.prf r1 32) r2 = USpec.kemPk f.spec r1 r2 := rfl
  have l1 : (USpec.kemPk f.spec r1 r2).length = f.P.L * 320 + 32 := length_kemPk _ _ _ hd1.1
  have l2 : (USpec.pkeKeyGenSk f.spec r2).length = f.P.L * (32 * f.EQ) := length_pkeKeyGenSk _ _
  rw [e0]
  have hloop := copyLoop_ok (writeAt sk 0 (USpec.pkeKeyGenSk f.spec r2)) f.INDCPA_SECRETKEYBYTES (USpec.kemPk f.spec r1 r2) f.INDCPA_PUBLICKEYBYTES
    (by omega) (by rw [length_writeAt _ _ _ (by omega)]; omega)
  simp only [Nat.add_comm f.INDCPA_SECRETKEYBYTES] at hloop
  rw [hloop, ok_bind, List.take_of_length_le (by omega), writeAt_after _ _ _ _ _ (by omega) (by omega)]
  have l3 : (USpec.pkeKeyGenSk f.spec r2 ++ USpec.kemPk f.spec r1 r2).length = f.P.L * (32 * f.EQ) + (f.P.L * 320 + 32) := by rw [List.length_append]; omega
  rw [hash_h_ok1 _ _ _ _ _ _ (by omega) (by rw [length_writeAt _ _ _ (by omega)]; omega) (by omega), ok_bind, List.drop_zero,
    List.take_of_length_le (by omega)]
  have l4 := length_H f (USpec.kemPk f.spec r1 r2)
  rw [writeAt_after _ _ _ _ _ (by omega) (by omega)]
  have l5 : (USpec.pkeKeyGenSk f.spec r2 ++ USpec.kemPk f.spec r1 r2 ++ f.sym.H (USpec.kemPk f.spec r1 r2)).length = f.P.L * (32 * f.EQ) + (f.P.L * 320 + 32) + 32 := by
    rw [List.length_append]; omega
  rw [hr3 _ _ (by rw [length_writeAt _ _ _ (by omega)]; simp only [KEYBYTES]; omega), ok_bind]
  dsimp only
  rw [writeAt_after _ _ _ _ _ (by simp only [KEYBYTES]; omega) (by omega), writeAt_full _ _ (by rw [List.length_append]; omega)]
  rfl

theorem crypto_kem_enc_ok {σ : Type} (f : Cfg) (rb : RandomBytes σ) (st st1 : σ) (m0 : List Byte)
    (hd1 : Delivers rb 32 st m0 st1) (c k pk : List Byte) (hc : c.length = f.BYTES_CCA_DEC) (hk : k.length = 32)
    (hpk : pk.length = f.PUBLICKEYBYTES) :
    crypto_kem_enc f rb c k pk st = .ok (0, USpec.encapsC f.spec m0 pk, USpec.encapsK f.spec m0 pk, st1) := by
  have k1 := PK_eq f
  have ks := len_small f
  have k3 := CT_eq f
  change pk.length = f.INDCPA_PUBLICKEYBYTES at hpk
  obtain ⟨hl, hr⟩ := hd1
  unfold crypto_kem_enc
  dsimp only
  rw [hr _ _ (by simp), ok_bind]
  dsimp only
  have lw : (writeAt (uninit 8 61 64) 0 m0).length = 64 := by rw [length_writeAt _ _ _ (by simp; omega)]; simp
  rw [hash_h_ok1 _ _ _ _ _ _ (by omega) (by omega) (by omega), ok_bind, List.drop_zero]
  have e1 : (writeAt (uninit 8 61 64) 0 m0).take 32 = m0 := by
    rw [writeAt_prefix, List.take_append_of_le_length (by omega), List.take_of_length_le (by omega)]
  rw [e1]
  have lm := length_H f m0
  have lp := length_H f pk
  rw [hash_h_ok1 _ _ _ _ _ _ (by omega) (by rw [length_writeAt _ _ _ (by omega)]; omega) (by omega), ok_bind, List.drop_zero,
    List.take_of_length_le (show pk.length ≤ f.INDCPA_PUBLICKEYBYTES by omega),
    writeAt_after _ _ _ _ _ (by omega) (by omega), writeAt_full _ _ (by rw [List.length_append]; omega)]
  have lb : (f.sym.H m0 ++ f.sym.H pk).length = 64 := by rw [List.length_append]; omega
  rw [hash_g_ok1 _ _ _ _ _ _ (by omega) (by simp) (by omega), ok_bind, List.drop_zero, List.take_of_length_le (by omega)]
  have lk := length_G f (f.sym.H m0 ++ f.sym.H pk)
  rw [writeAt_full _ _ (by simp; omega), indcpa_enc_ok f _ _ _ _ _ _ _ (by omega) (by omega) (by omega) hc, ok_bind, List.drop_zero, List.drop_zero,
    List.take_append_of_le_length (by omega), List.take_of_length_le (show (f.sym.H m0).length ≤ 32 by omega),
    List.take_of_length_le (show pk.length ≤ f.INDCPA_PUBLICKEYBYTES by omega),
    List.take_of_length_le (show (List.drop 32 _).length ≤ 32 by rw [List.length_drop]; omega)]
  have ec : USpec.pkeEnc f.spec (f.sym.H m0) ((f.sym.G (f.sym.H m0 ++ f.sym.H pk)).drop 32) pk = USpec.encapsC f.spec m0 pk := rfl
  rw [ec]
  have lc : (USpec.encapsC f.spec m0 pk).length = f.P.L * 320 + 32 * f.P.ET := length_pkeEnc _ _ _ _
  rw [hash_h_ok1 _ _ _ _ _ _ (by omega) (by omega) (by omega), ok_bind, List.drop_zero, List.take_of_length_le (show (USpec.encapsC f.spec m0 pk).length ≤ f.BYTES_CCA_DEC by omega)]
  have lh := length_H f (USpec.encapsC f.spec m0 pk)
  rw [hash_h_ok1 _ _ _ _ _ _ (by omega) (by omega) (by rw [length_writeAt _ _ _ (by omega)]; omega), ok_bind, List.drop_zero,
    List.take_of_length_le (show (writeAt _ _ _).length ≤ 64 by rw [length_writeAt _ _ _ (by omega)]; omega),
    writeAt_full k _ (by rw [length_H]; omega)]
  have e2 : writeAt (f.sym.G (f.sym.H m0 ++ f.sym.H pk)) 32 (f.sym.H (USpec.encapsC f.spec m0 pk)) =
      (USpec.kemKr f.spec (f.sym.H m0) (f.sym.H pk)).take 32 ++ f.sym.H (USpec.encapsC f.spec m0 pk) := by
    unfold writeAt
    rw [List.drop_of_length_le (by omega), List.append_nil]; rfl
  rw [e2]
  rfl

theorem crypto_kem_dec_ok (f : Cfg) (k c sk : List Byte) (hk : k.length = 32) (hc : c.length = f.BYTES_CCA_DEC)
    (hsk : sk.length = f.SECRETKEYBYTES) : crypto_kem_dec f k c sk = .ok (0, USpec.decaps f.spec sk c) := by
  have k1 := PK_eq f
  have ks := len_small f
  have k2 := SK_eq f
  have k3 := CT_eq f
  have k4 := KSK_eq f
  unfold crypto_kem_dec
  dsimp only
  rw [indcpa_dec_ok f sk c _ (by omega) (by omega) (by simp), ok_bind, List.take_of_length_le (show c.length ≤ f.BYTES_CCA_DEC by omega)]
  have eM : USpec.pkeDec f.spec (sk.take f.INDCPA_SECRETKEYBYTES) c = USpec.decapsM f.spec sk c := by rw [k2]; rfl
  rw [eM]
  have lM : (USpec.decapsM f.spec sk c).length = 32 := length_pkeDec _ _ _
  have hl := memcpy_ok (writeAt (uninit 8 63 64) 0 (USpec.decapsM f.spec sk c)) 32 sk (f.SECRETKEYBYTES - 64) 32 (by omega)
    (by rw [length_writeAt _ _ _ (by simp; omega)]; simp)
  unfold memcpy at hl
  rw [hl, ok_bind]
  have eH : (sk.drop (f.SECRETKEYBYTES - 64)).take 32 = USpec.skHpk f.spec sk := by
    have : f.SECRETKEYBYTES - 64 = f.P.L * (32 * f.EQ) + (f.P.L * 320 + 32) := by omega
    rw [this]; rfl
  rw [eH]
  have lH : (USpec.skHpk f.spec sk).length = 32 := by rw [← eH]; simp; omega
  rw [writeAt_after _ _ _ _ _ (by omega) (by simp; omega), writeAt_full _ _ (by simp; omega)]
  rw [hash_g_ok1 _ _ _ _ _ _ (by omega) (by simp) (by simp; omega), ok_bind, List.drop_zero, List.take_of_length_le (by simp; omega)]
  have eK : f.sym.G (USpec.decapsM f.spec sk c ++ USpec.skHpk f.spec sk) = USpec.decapsKr f.spec sk c := rfl
  rw [eK]
  have lk : (USpec.decapsKr f.spec sk c).length = 64 := length_G f _
  rw [writeAt_full _ _ (by simp; omega), indcpa_enc_ok f _ _ _ _ _ _ _ (by simp; omega) (by omega) (by omega) (by simp), ok_bind, List.drop_zero,
    List.take_append_of_le_length (by omega), List.take_of_length_le (show (USpec.decapsM f.spec sk c).length ≤ 32 by omega),
    List.take_of_length_le (show (List.drop 32 _).length ≤ 32 by rw [List.length_drop]; omega)]
  have ec : USpec.pkeEnc f.spec (USpec.decapsM f.spec sk c) ((USpec.decapsKr f.spec sk c).drop 32) ((sk.drop f.INDCPA_SECRETKEYBYTES).take f.INDCPA_PUBLICKEYBYTES) = USpec.reEncrypt f.spec sk c := by rw [k1, k2]; rfl
  rw [ec]
  have lc : (USpec.reEncrypt f.spec sk c).length = f.P.L * 320 + 32 * f.P.ET := length_pkeEnc _ _ _ _
  rw [verify_ok _ _ _ _ _ (by omega) (by omega), ok_bind, List.drop_zero, List.drop_zero, List.take_of_length_le (show c.length ≤ f.BYTES_CCA_DEC by omega),
    List.take_of_length_le (show (USpec.reEncrypt f.spec sk c).length ≤ f.BYTES_CCA_DEC by omega),
    hash_h_ok1 _ _ _ _ _ _ (by omega) (by omega) (by omega), ok_bind, List.drop_zero, List.take_of_length_le (show c.length ≤ f.BYTES_CCA_DEC by omega)]
  have lh := length_H f c
  have e2 : writeAt (USpec.decapsKr f.spec sk c) 32 (f.sym.H c) = (USpec.decapsKr f.spec sk c).take 32 ++ f.sym.H c := by
    unfold writeAt
    rw [List.drop_of_length_le (by omega), List.append_nil]
  have eZ : (sk.drop (f.SECRETKEYBYTES - KEYBYTES)).take KEYBYTES = USpec.skZ f.spec sk := by
    have : f.SECRETKEYBYTES - KEYBYTES = f.P.L * (32 * f.EQ) + (f.P.L * 320 + 32) + 32 := by simp only [KEYBYTES]; omega
    rw [this]; rfl
  have lZ : (USpec.skZ f.spec sk).length = 32 := by rw [← eZ]; simp [KEYBYTES]; omega
  rw [e2]
  unfold USpec.decaps
  by_cases hq : c = USpec.reEncrypt f.spec sk c
  · rw [if_pos hq, if_pos hq]
    have : BitVec.ofInt 8 0 = 0 := rfl
    rw [this, cmov_zero_ok _ _ _ _ _ (by simp [KEYBYTES]; omega) (by simp only [KEYBYTES]; omega), ok_bind, hash_h_ok1 _ _ _ _ _ _ (by omega) (by omega) (by simp; omega), ok_bind,
      List.drop_zero, List.take_of_length_le (by simp; omega), writeAt_full k _ (by rw [length_H]; omega)]
    rfl
  · rw [if_neg hq, if_neg hq]
    have : BitVec.ofInt 8 1 = 1 := rfl
    rw [this, cmov_one_ok _ _ _ _ _ (by simp [KEYBYTES]; omega) (by simp only [KEYBYTES]; omega), ok_bind, eZ, hash_h_ok1 _ _ _ _ _ _ (by omega) (by omega)
      (by rw [length_writeAt _ _ _ (by simp; omega)]; simp; omega), ok_bind,
      List.drop_zero, List.take_of_length_le (by rw [length_writeAt _ _ _ (by simp; omega)]; simp; omega), writeAt_full k _ (by rw [length_H]; omega)]
    have e3 : writeAt ((USpec.decapsKr f.spec sk c).take 32 ++ f.sym.H c) 0 (USpec.skZ f.spec sk) = USpec.skZ f.spec sk ++ f.sym.H c := by
      rw [writeAt_prefix, List.drop_append_of_le_length (by simp; omega), List.drop_of_length_le (by simp; omega), List.nil_append]
    rw [e3]
    rfl

end Saber.U
