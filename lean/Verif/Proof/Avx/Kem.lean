import Verif.Model.Avx.Kem
import Verif.Proof.Avx.Indcpa
import Verif.Proof.Kem
/-!
# Proofs about `kem.c` of the AVX2 implementation
-/
namespace Saber.Avx
open Spec

theorem PK_eq (P : PSet) : P.INDCPA_PUBLICKEYBYTES = P.L * 320 + 32 := rfl
theorem SK_eq (P : PSet) : P.INDCPA_SECRETKEYBYTES = P.L * 416 := rfl
theorem KSK_eq (P : PSet) : P.SECRETKEYBYTES = P.L * 416 + (P.L * 320 + 32) + 32 + 32 := rfl

theorem len_small (P : PSet) : P.L * 320 + 32 < 2 ^ 61 ∧ P.L * 320 + 32 * P.ET < 2 ^ 61 := by
  cases P <;> decide

theorem length_pkeKeyGenPk (P : PSet) (sym : USpec.Sym) (a b : List Byte) : (USpec.pkeKeyGenPk (spec P sym) a b).length = P.L * 320 + a.length := by
  unfold USpec.pkeKeyGenPk
  rw [List.length_append, length_packVec]

theorem length_pkeKeyGenSk (P : PSet) (sym : USpec.Sym) (b : List Byte) : (USpec.pkeKeyGenSk (spec P sym) b).length = P.L * 416 := length_packVec _ _ _

theorem length_pkeEnc (P : PSet) (sym : USpec.Sym) (m s pk : List Byte) : (USpec.pkeEnc (spec P sym) m s pk).length = P.L * 320 + 32 * P.ET := by
  unfold USpec.pkeEnc
  rw [List.length_append, length_packVec, length_pack]

theorem length_pkeDec (P : PSet) (sym : USpec.Sym) (sk c : List Byte) : (USpec.pkeDec (spec P sym) sk c).length = 32 := length_pack _ _

theorem length_kemPk {lib : Lib} {sym : USpec.Sym} (hlib : LibOk lib sym) (P : PSet) (a b : List Byte) (ha : a.length = 32) :
    (USpec.kemPk (spec P sym) a b).length = P.L * 320 + 32 := by
  unfold USpec.kemPk; rw [length_pkeKeyGenPk, hlib.lenPrf _ _ ha]

theorem crypto_kem_keypair_ok {σ : Type} {lib : Lib} {sym : USpec.Sym} (hlib : LibOk lib sym) (P : PSet) (rb : RandomBytes σ) (st st1 st2 st3 : σ) (r1 r2 z : List Byte)
    (hd1 : Delivers rb 32 st r1 st1) (hd2 : Delivers rb 32 st1 r2 st2) (h3 : Delivers rb 32 st2 z st3)
    (pk sk : List Byte) (hpk : pk.length = P.PUBLICKEYBYTES) (hsk : sk.length = P.SECRETKEYBYTES) :
    crypto_kem_keypair lib P rb pk sk st = .ok (0, USpec.kemPk (spec P sym) r1 r2, USpec.kemSk (spec P sym) r1 r2 z, st3) := by
  have k1 := PK_eq P
  have ks := len_small P
  have k2 := SK_eq P
  have k3 := KSK_eq P
  unfold crypto_kem_keypair
  rw [indcpa_keypair_ok hlib P rb st st1 st2 r1 r2 hd1 hd2 pk sk hpk (by omega), ok_bind]
  dsimp only
  obtain ⟨hl3, hr3⟩ := h3
  change (_ : List Byte).length = P.INDCPA_PUBLICKEYBYTES at hpk
  have e0 : USpec.pkeKeyGenPk (spec P sym) (sym.prf r1 32) r2 = USpec.kemPk (spec P sym) r1 r2 := rfl
  have l1 : (USpec.kemPk (spec P sym) r1 r2).length = P.L * 320 + 32 := length_kemPk hlib P _ _ hd1.1
  have l2 : (USpec.pkeKeyGenSk (spec P sym) r2).length = P.L * 416 := length_pkeKeyGenSk P sym _
  rw [e0]
  have hloop := copyLoop_ok (writeAt sk 0 (USpec.pkeKeyGenSk (spec P sym) r2)) P.INDCPA_SECRETKEYBYTES (USpec.kemPk (spec P sym) r1 r2) P.INDCPA_PUBLICKEYBYTES
    (by omega) (by rw [length_writeAt _ _ _ (by omega)]; omega)
  simp only [Nat.add_comm P.INDCPA_SECRETKEYBYTES] at hloop
  rw [hloop, ok_bind, List.take_of_length_le (by omega), writeAt_after _ _ _ _ _ (by omega) (by omega)]
  have l3 : (USpec.pkeKeyGenSk (spec P sym) r2 ++ USpec.kemPk (spec P sym) r1 r2).length = P.L * 416 + (P.L * 320 + 32) := by rw [List.length_append]; omega
  rw [hlib.h _ _ _ _ _ (by omega) (by rw [length_writeAt _ _ _ (by omega)]; omega) (by omega), ok_bind, List.drop_zero,
    List.take_of_length_le (by omega)]
  have l4 := hlib.lenH (USpec.kemPk (spec P sym) r1 r2)
  rw [writeAt_after _ _ _ _ _ (by omega) (by omega)]
  have l5 : (USpec.pkeKeyGenSk (spec P sym) r2 ++ USpec.kemPk (spec P sym) r1 r2 ++ sym.H (USpec.kemPk (spec P sym) r1 r2)).length = P.L * 416 + (P.L * 320 + 32) + 32 := by
    rw [List.length_append]; omega
  rw [hr3 _ _ (by rw [length_writeAt _ _ _ (by omega)]; simp only [KEYBYTES]; omega), ok_bind]
  dsimp only
  rw [writeAt_after _ _ _ _ _ (by simp only [KEYBYTES]; omega) (by omega), writeAt_full _ _ (by rw [List.length_append]; omega)]
  rfl

theorem crypto_kem_enc_ok {σ : Type} {lib : Lib} {sym : USpec.Sym} (hlib : LibOk lib sym) (P : PSet) (rb : RandomBytes σ) (st st1 : σ) (m0 : List Byte)
    (hd1 : Delivers rb 32 st m0 st1) (c k pk : List Byte) (hc : c.length = P.BYTES_CCA_DEC) (hk : k.length = 32)
    (hpk : pk.length = P.PUBLICKEYBYTES) :
    crypto_kem_enc lib P rb c k pk st = .ok (0, USpec.encapsC (spec P sym) m0 pk, USpec.encapsK (spec P sym) m0 pk, st1) := by
  have k1 := PK_eq P
  have ks := len_small P
  have k3 := CT_eq P
  change pk.length = P.INDCPA_PUBLICKEYBYTES at hpk
  obtain ⟨hl, hr⟩ := hd1
  unfold crypto_kem_enc
  dsimp only
  rw [hr _ _ (by simp), ok_bind]
  dsimp only
  have lw : (writeAt (uninit 8 181 64) 0 m0).length = 64 := by rw [length_writeAt _ _ _ (by simp; omega)]; simp
  rw [hlib.h _ _ _ _ _ (by omega) (by omega) (by omega), ok_bind, List.drop_zero]
  have e1 : (writeAt (uninit 8 181 64) 0 m0).take 32 = m0 := by
    rw [writeAt_prefix, List.take_append_of_le_length (by omega), List.take_of_length_le (by omega)]
  rw [e1]
  have lm := hlib.lenH m0
  have lp := hlib.lenH pk
  rw [hlib.h _ _ _ _ _ (by omega) (by rw [length_writeAt _ _ _ (by omega)]; omega) (by omega), ok_bind, List.drop_zero,
    List.take_of_length_le (show pk.length ≤ P.INDCPA_PUBLICKEYBYTES by omega),
    writeAt_after _ _ _ _ _ (by omega) (by omega), writeAt_full _ _ (by rw [List.length_append]; omega)]
  have lb : (sym.H m0 ++ sym.H pk).length = 64 := by rw [List.length_append]; omega
  rw [hlib.g _ _ _ _ _ (by omega) (by simp) (by omega), ok_bind, List.drop_zero, List.take_of_length_le (by omega)]
  have lk := hlib.lenG (sym.H m0 ++ sym.H pk)
  rw [writeAt_full _ _ (by simp; omega), indcpa_enc_ok hlib P _ _ _ _ _ _ _ (by omega) (by omega) (by omega) hc, ok_bind, List.drop_zero, List.drop_zero,
    List.take_append_of_le_length (by omega), List.take_of_length_le (show (sym.H m0).length ≤ 32 by omega),
    List.take_of_length_le (show pk.length ≤ P.INDCPA_PUBLICKEYBYTES by omega),
    List.take_of_length_le (show (List.drop 32 _).length ≤ 32 by rw [List.length_drop]; omega)]
  have ec : USpec.pkeEnc (spec P sym) (sym.H m0) ((sym.G (sym.H m0 ++ sym.H pk)).drop 32) pk = USpec.encapsC (spec P sym) m0 pk := rfl
  rw [ec]
  have lc : (USpec.encapsC (spec P sym) m0 pk).length = P.L * 320 + 32 * P.ET := length_pkeEnc P sym _ _ _
  rw [hlib.h _ _ _ _ _ (by omega) (by omega) (by omega), ok_bind, List.drop_zero, List.take_of_length_le (show (USpec.encapsC (spec P sym) m0 pk).length ≤ P.BYTES_CCA_DEC by omega)]
  have lh := hlib.lenH (USpec.encapsC (spec P sym) m0 pk)
  rw [hlib.h _ _ _ _ _ (by omega) (by omega) (by rw [length_writeAt _ _ _ (by omega)]; omega), ok_bind, List.drop_zero,
    List.take_of_length_le (show (writeAt _ _ _).length ≤ 64 by rw [length_writeAt _ _ _ (by omega)]; omega),
    writeAt_full k _ (by rw [hlib.lenH]; omega)]
  have e2 : writeAt (sym.G (sym.H m0 ++ sym.H pk)) 32 (sym.H (USpec.encapsC (spec P sym) m0 pk)) =
      (USpec.kemKr (spec P sym) (sym.H m0) (sym.H pk)).take 32 ++ sym.H (USpec.encapsC (spec P sym) m0 pk) := by
    unfold writeAt
    rw [List.drop_of_length_le (by omega), List.append_nil]; rfl
  rw [e2]
  rfl

theorem crypto_kem_dec_ok {lib : Lib} {sym : USpec.Sym} (hlib : LibOk lib sym) (P : PSet) (k c sk : List Byte) (hk : k.length = 32) (hc : c.length = P.BYTES_CCA_DEC)
    (hsk : sk.length = P.SECRETKEYBYTES) : crypto_kem_dec lib P k c sk = .ok (0, USpec.decaps (spec P sym) sk c) := by
  have k1 := PK_eq P
  have ks := len_small P
  have k2 := SK_eq P
  have k3 := CT_eq P
  have k4 := KSK_eq P
  unfold crypto_kem_dec
  dsimp only
  rw [indcpa_dec_ok P sym sk c _ (by omega) (by omega) (by simp), ok_bind, List.take_of_length_le (show c.length ≤ P.BYTES_CCA_DEC by omega)]
  have eM : USpec.pkeDec (spec P sym) (sk.take P.INDCPA_SECRETKEYBYTES) c = USpec.decapsM (spec P sym) sk c := by rw [k2]; rfl
  rw [eM]
  have lM : (USpec.decapsM (spec P sym) sk c).length = 32 := length_pkeDec P sym _ _
  have hl := memcpy_ok (writeAt (uninit 8 183 64) 0 (USpec.decapsM (spec P sym) sk c)) 32 sk (P.SECRETKEYBYTES - 64) 32 (by omega)
    (by rw [length_writeAt _ _ _ (by simp; omega)]; simp)
  unfold memcpy at hl
  rw [hl, ok_bind]
  have eH : (sk.drop (P.SECRETKEYBYTES - 64)).take 32 = USpec.skHpk (spec P sym) sk := by
    have : P.SECRETKEYBYTES - 64 = P.L * 416 + (P.L * 320 + 32) := by omega
    rw [this]; rfl
  rw [eH]
  have lH : (USpec.skHpk (spec P sym) sk).length = 32 := by rw [← eH]; simp; omega
  rw [writeAt_after _ _ _ _ _ (by omega) (by simp; omega), writeAt_full _ _ (by simp; omega)]
  rw [hlib.g _ _ _ _ _ (by omega) (by simp) (by simp; omega), ok_bind, List.drop_zero, List.take_of_length_le (by simp; omega)]
  have eK : sym.G (USpec.decapsM (spec P sym) sk c ++ USpec.skHpk (spec P sym) sk) = USpec.decapsKr (spec P sym) sk c := rfl
  rw [eK]
  have lk : (USpec.decapsKr (spec P sym) sk c).length = 64 := hlib.lenG _
  rw [writeAt_full _ _ (by simp; omega), indcpa_enc_ok hlib P _ _ _ _ _ _ _ (by simp; omega) (by omega) (by omega) (by simp), ok_bind, List.drop_zero,
    List.take_append_of_le_length (by omega), List.take_of_length_le (show (USpec.decapsM (spec P sym) sk c).length ≤ 32 by omega),
    List.take_of_length_le (show (List.drop 32 _).length ≤ 32 by rw [List.length_drop]; omega)]
  have ec : USpec.pkeEnc (spec P sym) (USpec.decapsM (spec P sym) sk c) ((USpec.decapsKr (spec P sym) sk c).drop 32) ((sk.drop P.INDCPA_SECRETKEYBYTES).take P.INDCPA_PUBLICKEYBYTES) = USpec.reEncrypt (spec P sym) sk c := by rw [k1, k2]; rfl
  rw [ec]
  have lc : (USpec.reEncrypt (spec P sym) sk c).length = P.L * 320 + 32 * P.ET := length_pkeEnc P sym _ _ _
  rw [verify_ok _ _ _ _ _ (by omega) (by omega), ok_bind, List.drop_zero, List.drop_zero, List.take_of_length_le (show c.length ≤ P.BYTES_CCA_DEC by omega),
    List.take_of_length_le (show (USpec.reEncrypt (spec P sym) sk c).length ≤ P.BYTES_CCA_DEC by omega),
    hlib.h _ _ _ _ _ (by omega) (by omega) (by omega), ok_bind, List.drop_zero, List.take_of_length_le (show c.length ≤ P.BYTES_CCA_DEC by omega)]
  have lh := hlib.lenH c
  have e2 : writeAt (USpec.decapsKr (spec P sym) sk c) 32 (sym.H c) = (USpec.decapsKr (spec P sym) sk c).take 32 ++ sym.H c := by
    unfold writeAt
    rw [List.drop_of_length_le (by omega), List.append_nil]
  have eZ : (sk.drop (P.SECRETKEYBYTES - KEYBYTES)).take KEYBYTES = USpec.skZ (spec P sym) sk := by
    have : P.SECRETKEYBYTES - KEYBYTES = P.L * 416 + (P.L * 320 + 32) + 32 := by simp only [KEYBYTES]; omega
    rw [this]; rfl
  have lZ : (USpec.skZ (spec P sym) sk).length = 32 := by rw [← eZ]; simp [KEYBYTES]; omega
  rw [e2]
  unfold USpec.decaps
  by_cases hq : c = USpec.reEncrypt (spec P sym) sk c
  · rw [if_pos hq, if_pos hq]
    have : BitVec.ofInt 8 0 = 0 := rfl
    rw [this, cmov_zero_ok _ _ _ _ _ (by simp [KEYBYTES]; omega) (by simp only [KEYBYTES]; omega), ok_bind, hlib.h _ _ _ _ _ (by omega) (by omega) (by simp; omega), ok_bind,
      List.drop_zero, List.take_of_length_le (by simp; omega), writeAt_full k _ (by rw [hlib.lenH]; omega)]
    rfl
  · rw [if_neg hq, if_neg hq]
    have : BitVec.ofInt 8 1 = 1 := rfl
    rw [this, cmov_one_ok _ _ _ _ _ (by simp [KEYBYTES]; omega) (by simp only [KEYBYTES]; omega), ok_bind, eZ, hlib.h _ _ _ _ _ (by omega) (by omega)
      (by rw [length_writeAt _ _ _ (by simp; omega)]; simp; omega), ok_bind,
      List.drop_zero, List.take_of_length_le (by rw [length_writeAt _ _ _ (by simp; omega)]; simp; omega), writeAt_full k _ (by rw [hlib.lenH]; omega)]
    have e3 : writeAt ((USpec.decapsKr (spec P sym) sk c).take 32 ++ sym.H c) 0 (USpec.skZ (spec P sym) sk) = USpec.skZ (spec P sym) sk ++ sym.H c := by
      rw [writeAt_prefix, List.drop_append_of_le_length (by simp; omega), List.drop_of_length_le (by simp; omega), List.nil_append]
    rw [e3]
    rfl

end Saber.Avx
