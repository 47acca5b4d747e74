import Verif.Model.InPlaceU
import Verif.Proof.U.Kem
import Verif.Proof.InPlaceKem
/-!
# Proofs about `kem.c` of the variants with all arguments in one object
-/
namespace Saber.U.InPlace
open Spec

theorem crypto_kem_dec_ok (f : Cfg) (mem : List Byte) (kOff cOff skOff : Nat) (hk : kOff + 32 ≤ mem.length)
    (hc : cOff + f.BYTES_CCA_DEC ≤ mem.length) (hsk : skOff + f.SECRETKEYBYTES ≤ mem.length) (sk c : List Byte)
    (esk : sk = (mem.drop skOff).take f.SECRETKEYBYTES) (ec' : c = (mem.drop cOff).take f.BYTES_CCA_DEC) :
    crypto_kem_dec f mem kOff cOff skOff = .ok (0, writeAt mem kOff (USpec.decaps f.spec sk c)) := by
  have k1 := PK_eq f
  have ks := len_small f
  have k2 := SK_eq f
  have k3 := CT_eq f
  have k4 := KSK_eq f
  have sub : ∀ o n, o + n ≤ f.SECRETKEYBYTES → (mem.drop (skOff + o)).take n = (sk.drop o).take n := fun o n h => by
    rw [esk, List.drop_take, List.drop_drop, List.take_take, min_eq_left (by omega)]
  have lsk : sk.length = f.SECRETKEYBYTES := by rw [esk]; simp; omega
  have lcc : c.length = f.BYTES_CCA_DEC := by rw [ec']; simp; omega
  have s0 : (mem.drop skOff).take f.INDCPA_SECRETKEYBYTES = sk.take f.INDCPA_SECRETKEYBYTES := sub 0 _ (by omega)
  unfold crypto_kem_dec
  dsimp only
  rw [indcpa_dec_ok f _ _ _ (by rw [List.length_drop]; omega) (by rw [List.length_drop]; omega) (by simp), ok_bind, ← ec', s0]
  have eM : USpec.pkeDec f.spec (sk.take f.INDCPA_SECRETKEYBYTES) c = USpec.decapsM f.spec sk c := by rw [k2]; rfl
  rw [eM]
  have lM : (USpec.decapsM f.spec sk c).length = 32 := length_pkeDec _ _ _
  have hl := memcpy_ok (writeAt (uninit 8 63 64) 0 (USpec.decapsM f.spec sk c)) 32 mem (skOff + (f.SECRETKEYBYTES - 64)) 32 (by omega)
    (by rw [length_writeAt _ _ _ (by simp; omega)]; simp)
  unfold memcpy at hl
  rw [hl, ok_bind, sub _ _ (by omega)]
  have eH : (sk.drop (f.SECRETKEYBYTES - 64)).take 32 = USpec.skHpk f.spec sk := by
    have : f.SECRETKEYBYTES - 64 = f.P.L * (32 * f.EQ) + (f.P.L * 320 + 32) := by omega
    rw [this]; rfl
  rw [eH]
  have lH : (USpec.skHpk f.spec sk).length = 32 := by rw [← eH]; simp; omega
  rw [writeAt_after _ _ _ _ _ (by omega) (by simp; omega), writeAt_full _ _ (by simp; omega)]
  rw [hash_g_ok1 _ _ _ _ _ _ (by omega) (by simp) (by simp; omega), ok_bind, List.drop_zero, List.take_of_length_le (by simp; omega)]
  have eK : f.sym.G (USpec.decapsM f.spec sk c ++ USpec.skHpk f.spec sk) = USpec.decapsKr f.spec sk c := rfl
  rw [eK]
  have lk : (USpec.decapsKr f.spec sk c).length = 64 := length_G f _
  rw [writeAt_full _ _ (by simp; omega), indcpa_enc_ok f _ _ _ _ _ _ _ (by simp; omega) (by omega) (by omega) (by simp), ok_bind, List.drop_zero,
    List.take_append_of_le_length (by omega), List.take_of_length_le (show (USpec.decapsM f.spec sk c).length ≤ 32 by omega),
    List.take_of_length_le (show (List.drop 32 _).length ≤ 32 by rw [List.length_drop]; omega), sub _ _ (by omega)]
  have ec : USpec.pkeEnc f.spec (USpec.decapsM f.spec sk c) ((USpec.decapsKr f.spec sk c).drop 32) ((sk.drop f.INDCPA_SECRETKEYBYTES).take f.INDCPA_PUBLICKEYBYTES) = USpec.reEncrypt f.spec sk c := by rw [k1, k2]; rfl
  rw [ec]
  have lc : (USpec.reEncrypt f.spec sk c).length = f.P.L * 320 + 32 * f.P.ET := length_pkeEnc _ _ _ _
  rw [verify_ok _ _ _ _ _ (by omega) (by omega), ok_bind, List.drop_zero, ← ec',
    List.take_of_length_le (show (USpec.reEncrypt f.spec sk c).length ≤ f.BYTES_CCA_DEC by omega),
    hash_h_ok1 _ _ _ _ _ _ (by omega) (by omega) (by omega), ok_bind, ← ec']
  have lh := length_H f c
  have e2 : writeAt (USpec.decapsKr f.spec sk c) 32 (f.sym.H c) = (USpec.decapsKr f.spec sk c).take 32 ++ f.sym.H c := by
    unfold writeAt
    rw [List.drop_of_length_le (by omega), List.append_nil]
  have eZ : (sk.drop (f.SECRETKEYBYTES - KEYBYTES)).take KEYBYTES = USpec.skZ f.spec sk := by
    have : f.SECRETKEYBYTES - KEYBYTES = f.P.L * (32 * f.EQ) + (f.P.L * 320 + 32) + 32 := by simp only [KEYBYTES]; omega
    rw [this]; rfl
  have lZ : (USpec.skZ f.spec sk).length = 32 := by rw [← eZ]; simp [KEYBYTES]; omega
  rw [e2]
  unfold USpec.decaps
  by_cases hq : c = USpec.reEncrypt f.spec sk c
  · rw [if_pos hq, if_pos hq]
    have : BitVec.ofInt 8 0 = 0 := rfl
    rw [this, cmov_zero_ok _ _ _ _ _ (by simp [KEYBYTES]; omega) (by simp only [KEYBYTES]; omega), ok_bind, hash_h_ok1 _ _ _ _ _ _ (by omega) (by omega) (by simp; omega), ok_bind,
      List.drop_zero, List.take_of_length_le (by simp; omega)]
    rfl
  · rw [if_neg hq, if_neg hq]
    have : BitVec.ofInt 8 1 = 1 := rfl
    rw [this, cmov_one_ok _ _ _ _ _ (by simp [KEYBYTES]; omega) (by simp only [KEYBYTES]; omega), ok_bind, sub _ _ (by simp only [KEYBYTES]; omega), eZ, hash_h_ok1 _ _ _ _ _ _ (by omega) (by omega)
      (by rw [length_writeAt _ _ _ (by simp; omega)]; simp; omega), ok_bind,
      List.drop_zero, List.take_of_length_le (by rw [length_writeAt _ _ _ (by simp; omega)]; simp; omega)]
    have e3 : writeAt ((USpec.decapsKr f.spec sk c).take 32 ++ f.sym.H c) 0 (USpec.skZ f.spec sk) = USpec.skZ f.spec sk ++ f.sym.H c := by
      rw [writeAt_prefix, List.drop_append_of_le_length (by simp; omega), List.drop_of_length_le (by simp; omega), List.nil_append]
    rw [e3]
    rfl

/-- First part of the ciphertext. -/
def ctHead (f : Cfg) (seedA S : List Byte) : List Byte :=
  packVec 10 (fun i => USpec.roundP f.EQ (matVec (USpec.genMatrix f.spec seedA) (USpec.genSecret f.spec S) i))

theorem length_ctHead (f : Cfg) (seedA S : List Byte) : (ctHead f seedA S).length = f.P.L * 320 := length_packVec _ _ _

/-- The public key that `indcpa_kem_enc` sees. -/
def seenPk (f : Cfg) (mem : List Byte) (pkOff cOff : Nat) (S : List Byte) : List Byte :=
  ((writeAt mem cOff (ctHead f ((mem.drop (pkOff + f.P.L * 320)).take 32) S)).drop pkOff).take (f.P.L * 320) ++ (mem.drop (pkOff + f.P.L * 320)).take 32

theorem indcpa_enc_ok (f : Cfg) (m : List Byte) (mOff : Nat) (seed : List Byte) (seedOff : Nat) (mem : List Byte) (pkOff cOff : Nat)
    (hm : mOff + 32 ≤ m.length) (hs : seedOff + 32 ≤ seed.length)
    (hpk : pkOff + f.INDCPA_PUBLICKEYBYTES ≤ mem.length) (hc : cOff + f.BYTES_CCA_DEC ≤ mem.length) :
    indcpa_kem_enc f m mOff seed seedOff mem pkOff cOff =
      .ok (writeAt mem cOff (USpec.pkeEnc f.spec ((m.drop mOff).take 32) ((seed.drop seedOff).take 32) (seenPk f mem pkOff cOff ((seed.drop seedOff).take 32)))) := by
  have hpl : f.INDCPA_PUBLICKEYBYTES = f.P.L * 320 + 32 := rfl
  have e1 : f.POLYVECCOMPRESSEDBYTES = f.P.L * 320 := rfl
  have hcl := CT_eq f
  unfold indcpa_kem_enc
  rw [GenMatrix_ok f _ (isMat_uninitMat _ _) _ _ (by omega), ok_bind, GenSecret_ok f _ (isVec_uninitVec _ _) _ _ (by omega), ok_bind, e1]
  generalize hS : (seed.drop seedOff).take 32 = S
  generalize hPK : seenPk f mem pkOff cOff S = PK
  unfold seenPk at hPK
  have lS : ((mem.drop (pkOff + f.P.L * 320)).take 32).length = 32 := by simp; omega
  generalize (mem.drop (pkOff + f.P.L * 320)).take 32 = seedA at *
  have lH := length_ctHead f seedA S
  obtain ⟨b, hb, hbv, hbm⟩ := MatrixVectorMul_ok f.P (ofM (USpec.genMatrix f.spec seedA)) (ofV (USpec.genSecret f.spec S)) (zeroVec f.P.L) 0
    (isMat_ofM _) (isVec_ofV _) (isVec_zeroVec _)
  rw [hb, ok_bind]
  obtain ⟨b', hb', hbv', hbm'⟩ := roundVec_ok f b hbv
  have ebp : packVec 10 (toV f.P.L b') = ctHead f seedA S := by
    apply packVec_congr (by omega)
    intro i
    have : (fun k => (toV f.P.L b i k + h1 f) / 2 ^ (f.EQ - 10)) = toV f.P.L b' i := by funext k; rw [hbm']
    rw [← this]
    apply roundP_congr f
    refine EqMod.trans (EqMod.of_dvd (q_dvd f) (hbm i)) ?_
    simp only [toV_zeroVec, zero_add, show ¬ ((0 : Int) = 1) by decide, if_false]
    apply matVec_congr (m := 2 ^ f.EQ)
    · intro i j
      rw [toM_ofM]; exact toP_ofP_mod _ _ (q_dvd16 f)
    · intro j
      rw [toV_ofV]; exact toP_ofP_mod _ _ (q_dvd16 f)
  rw [hb', ok_bind, POLVECp2BS_ok f.P mem cOff _ hbv' (by omega), ok_bind, ebp]
  have lW : (writeAt mem cOff (ctHead f seedA S)).length = mem.length := length_writeAt _ _ _ (by omega)
  generalize hW : writeAt mem cOff (ctHead f seedA S) = W at *
  rw [BS2POLVECp_ok f.P W pkOff _ (isVec_uninitVec _ _) (by omega), ok_bind]
  obtain ⟨vp, hvp, hvl, hvm⟩ := InnerProd_ok f.P (ofV (unpackVec 10 f.P.L (W.drop pkOff))) (ofV (USpec.genSecret f.spec S)) (List.replicate N 0)
    (isVec_ofV _) (isVec_ofV _) (by simp)
  rw [hvp, ok_bind, BS2POLmsg_ok m mOff _ (length_uninit _ _ _) (by omega), ok_bind]
  obtain ⟨w, hw, hwl, hwm⟩ := encRound_ok f vp (ofP (unpack 1 (m.drop mOff))) hvl (by simp)
  have lP1 : ((W.drop pkOff).take (f.P.L * 320)).length = f.P.L * 320 := by simp; omega
  have eb : ∀ i, unpackVec 10 f.P.L (W.drop pkOff) i = unpackVec 10 f.P.L PK i := by
    intro i
    have h1 := unpackVec_take 10 f.P.L (f.P.L * 320) (W.drop pkOff) (by omega)
    have h2 := unpackVec_take 10 f.P.L (f.P.L * 320) PK (by omega)
    have h3 : PK.take (f.P.L * 320) = (W.drop pkOff).take (f.P.L * 320) := by
      rw [← hPK, List.take_append_of_le_length (by omega), List.take_of_length_le (by omega)]
    rw [← h1, ← h2, h3]
  have em : pack f.P.ET (toP w) = pack f.P.ET (USpec.encodeMsg f.EQ f.P.ET (innerProd (unpackVec 10 f.P.L PK) (USpec.genSecret f.spec S)) (unpack 1 ((m.drop mOff).take 32))) := by
    apply pack_congr (by cases f.P <;> decide)
    have : toP w = fun k => ((toP vp k - 512 * toP (ofP (unpack 1 (m.drop mOff))) k + h1 f) / 2 ^ (10 - f.P.ET)) % 65536 := by
      funext k; rw [hwm]
    rw [this]
    apply encodeMsg_congr
    · refine EqMod.trans (EqMod.of_dvd (m := 8192) (by decide) hvm) ?_
      simp only [toP_zero, zero_add]
      apply innerProd_congr (m := 1024)
      · intro j
        rw [toV_ofV, ← eb]; exact toP_ofP_mod _ _ (by decide)
      · intro j
        rw [toV_ofV]; exact toP_ofP_mod _ _ (by decide)
    · intro k
      have h1 := unpack_range 1 (m.drop mOff) k
      rw [toP_ofP, Int.emod_eq_of_lt h1.1 (by omega)]
      rw [unpack_take _ _ _ (by omega)]
  have eP : PK.drop (f.P.L * 320) = seedA := by
    rw [← hPK, List.drop_append_of_le_length (by omega), List.drop_of_length_le (by omega), List.nil_append]
  have ec : USpec.pkeEnc f.spec ((m.drop mOff).take 32) S PK = ctHead f seedA S ++
      pack f.P.ET (USpec.encodeMsg f.EQ f.P.ET (innerProd (unpackVec 10 f.P.L PK) (USpec.genSecret f.spec S)) (unpack 1 ((m.drop mOff).take 32))) := by
    rw [← eP]; rfl
  have lp : ∀ p, (pack f.P.ET p).length = 32 * f.P.ET := fun p => length_pack _ _
  rw [hw, ok_bind, POLT2BS_ok f.P _ _ _ hwl (by omega), em, ec, ← hW, writeAt_after _ _ _ _ _ (by omega) (by rw [lp]; omega)]

theorem crypto_kem_enc_ok {σ : Type} (f : Cfg) (rb : RandomBytes σ) (st st1 : σ) (m0 : List Byte) (h1 : Delivers rb 32 st m0 st1)
    (mem : List Byte) (cOff kOff pkOff : Nat) (hc : cOff + f.BYTES_CCA_DEC ≤ mem.length) (hk : kOff + 32 ≤ mem.length)
    (hpk : pkOff + f.INDCPA_PUBLICKEYBYTES ≤ mem.length) (pk kr c : List Byte) (epk : pk = (mem.drop pkOff).take f.INDCPA_PUBLICKEYBYTES)
    (ekr : kr = f.sym.G (f.sym.H m0 ++ f.sym.H pk))
    (ec : c = USpec.pkeEnc f.spec (f.sym.H m0) (kr.drop 32) (seenPk f mem pkOff cOff (kr.drop 32))) :
    crypto_kem_enc f rb mem cOff kOff pkOff st = .ok (0, writeAt (writeAt mem cOff c) kOff (f.sym.H (kr.take 32 ++ f.sym.H c)), st1) := by
  have k1 := PK_eq f
  have ks := len_small f
  have k3 := CT_eq f
  obtain ⟨hl, hr⟩ := h1
  unfold crypto_kem_enc
  dsimp only
  rw [hr _ _ (by simp), ok_bind]
  dsimp only
  have lw : (writeAt (uninit 8 61 64) 0 m0).length = 64 := by rw [length_writeAt _ _ _ (by simp; omega)]; simp
  rw [hash_h_ok1 _ _ _ _ _ _ (by omega) (by omega) (by omega), ok_bind, List.drop_zero]
  have e1 : (writeAt (uninit 8 61 64) 0 m0).take 32 = m0 := by
    rw [writeAt_prefix, List.take_append_of_le_length (by omega), List.take_of_length_le (by omega)]
  rw [e1]
  have lm := length_H f m0
  have lp := length_H f pk
  rw [hash_h_ok1 _ _ _ _ _ _ (by omega) (by rw [length_writeAt _ _ _ (by omega)]; omega) (by omega), ok_bind, ← epk,
    writeAt_after _ _ _ _ _ (by omega) (by omega), writeAt_full _ _ (by rw [List.length_append]; omega)]
  have lb : (f.sym.H m0 ++ f.sym.H pk).length = 64 := by rw [List.length_append]; omega
  have lk : kr.length = 64 := by rw [ekr]; exact length_G f _
  rw [hash_g_ok1 _ _ _ _ _ _ (by omega) (by simp) (by omega), ok_bind, List.drop_zero, List.take_of_length_le (by omega), ← ekr,
    writeAt_full _ _ (by simp; omega), indcpa_enc_ok f _ _ _ _ _ _ _ (by omega) (by omega) hpk hc, ok_bind, List.drop_zero,
    List.take_append_of_le_length (by omega), List.take_of_length_le (show (f.sym.H m0).length ≤ 32 by omega),
    List.take_of_length_le (show (List.drop 32 kr).length ≤ 32 by rw [List.length_drop]; omega), ← ec]
  have lc : c.length = f.P.L * 320 + 32 * f.P.ET := by rw [ec]; exact length_pkeEnc _ _ _ _
  have lW : (writeAt mem cOff c).length = mem.length := length_writeAt _ _ _ (by omega)
  have er : ((writeAt mem cOff c).drop cOff).take f.BYTES_CCA_DEC = c := by
    rw [k3, ← lc]; exact writeAt_read _ _ _ (by omega)
  rw [hash_h_ok1 _ _ _ _ _ _ (by omega) (by omega) (by omega), ok_bind, er]
  have lh := length_H f c
  rw [hash_h_ok1 _ _ _ _ _ _ (by omega) (by omega) (by rw [length_writeAt _ _ _ (by omega)]; omega), ok_bind, List.drop_zero,
    List.take_of_length_le (show (writeAt _ _ _).length ≤ 64 by rw [length_writeAt _ _ _ (by omega)]; omega)]
  have e2 : writeAt kr 32 (f.sym.H c) = kr.take 32 ++ f.sym.H c := by
    unfold writeAt
    rw [List.drop_of_length_le (by omega), List.append_nil]
  rw [e2]
  rfl

theorem indcpa_keypair_ok {σ : Type} (f : Cfg) (rb : RandomBytes σ) (st st1 st2 : σ) (r1 r2 : List Byte)
    (hd1 : Delivers rb 32 st r1 st1) (hd2 : Delivers rb 32 st1 r2 st2)
    (mem : List Byte) (pkOff skOff : Nat) (hpk : pkOff + f.INDCPA_PUBLICKEYBYTES ≤ mem.length) (hsk : skOff + f.INDCPA_SECRETKEYBYTES ≤ mem.length) :
    indcpa_kem_keypair f rb mem pkOff skOff st =
      .ok (writeAt (writeAt mem skOff (USpec.pkeKeyGenSk f.spec r2)) pkOff (USpec.pkeKeyGenPk f.spec (f.sym.prf r1 32) r2), st2) := by
  obtain ⟨hl1, hr1⟩ := hd1
  obtain ⟨hl2, hr2⟩ := hd2
  unfold indcpa_kem_keypair
  rw [hr1 _ _ (by simp), ok_bind]
  dsimp only
  rw [writeAt_full _ _ (by simp [hl1])]
  rw [prf_ok _ _ _ _ _ _ (by simp [hl1]) (by simp [hl1]), ok_bind, List.drop_zero, List.take_of_length_le (by simp [hl1]),
    writeAt_full _ _ (by rw [length_prf f r1 32 hl1, hl1]), hr2 _ _ (by simp), ok_bind]
  dsimp only
  rw [writeAt_full _ _ (by simp [hl2])]
  have hlA := length_prf f r1 32 hl1
  generalize f.sym.prf r1 32 = seedA at *
  rw [GenMatrix_ok f _ (isMat_uninitMat _ _) _ _ (by omega), ok_bind, GenSecret_ok f _ (isVec_uninitVec _ _) _ _ (by omega), ok_bind,
    List.drop_zero, List.drop_zero, List.take_of_length_le (show seedA.length ≤ 32 by omega), List.take_of_length_le (show r2.length ≤ 32 by omega)]
  obtain ⟨b, hb, hbv, hbm⟩ := MatrixVectorMul_ok f.P (ofM (USpec.genMatrix f.spec seedA)) (ofV (USpec.genSecret f.spec r2)) (zeroVec f.P.L) 1
    (isMat_ofM _) (isVec_ofV _) (isVec_zeroVec _)
  rw [hb, ok_bind]
  obtain ⟨b', hb', hbv', hbm'⟩ := roundVec_ok f b hbv
  have epk : packVec 10 (toV f.P.L b') = packVec 10 (USpec.pubVec f.spec seedA r2) := by
    apply packVec_congr (by omega)
    intro i
    have : (fun k => (toV f.P.L b i k + h1 f) / 2 ^ (f.EQ - 10)) = toV f.P.L b' i := by funext k; rw [hbm']
    rw [← this]
    apply roundP_congr f
    refine EqMod.trans (EqMod.of_dvd (q_dvd f) (hbm i)) ?_
    simp only [toV_zeroVec, zero_add, if_true]
    apply matVec_congr (m := 2 ^ f.EQ)
    · intro i j
      unfold transpose
      rw [toM_ofM]; exact toP_ofP_mod _ _ (q_dvd16 f)
    · intro j
      rw [toV_ofV]; exact toP_ofP_mod _ _ (q_dvd16 f)
  have esk : packVec f.EQ (toV f.P.L (ofV (USpec.genSecret f.spec r2))) = USpec.pkeKeyGenSk f.spec r2 := by
    apply packVec_congr (EQ_pos f)
    intro i
    rw [toV_ofV]; exact toP_ofP_mod _ _ (by have := q_dvd16 f; push_cast at this; exact this)
  have hsl := SK_eq f
  have hpl : f.INDCPA_PUBLICKEYBYTES = f.P.L * 320 + 32 := rfl
  have hls : (USpec.pkeKeyGenSk f.spec r2).length = f.P.L * (32 * f.EQ) := length_pkeKeyGenSk _ _
  have hlp : (packVec 10 (USpec.pubVec f.spec seedA r2)).length = f.P.L * 320 := length_packVec _ _ _
  have e1 : f.POLYVECCOMPRESSEDBYTES = f.P.L * 320 := rfl
  have e2 : SEEDBYTES = 32 := rfl
  rw [hb', ok_bind, POLVECq2BS_ok f mem skOff _ (isVec_ofV _) (by omega), ok_bind, esk]
  have lW : (writeAt mem skOff (USpec.pkeKeyGenSk f.spec r2)).length = mem.length := length_writeAt _ _ _ (by omega)
  rw [POLVECp2BS_ok f.P _ pkOff _ hbv' (by omega), ok_bind, epk,
    memcpy_ok _ _ _ _ _ (by omega) (by rw [length_writeAt _ _ _ (by omega)]; omega), ok_bind, List.drop_zero,
    List.take_of_length_le (by omega), e1, writeAt_after _ _ _ _ _ (by omega) (by omega)]
  rfl

/-- The result if the public key and the secret key do not overlap, or the public key is put where the secret key contains it. -/
theorem crypto_kem_keypair_ok {σ : Type} (f : Cfg) (rb : RandomBytes σ) (st st1 st2 st3 : σ) (r1 r2 z : List Byte)
    (h1 : Delivers rb 32 st r1 st1) (h2 : Delivers rb 32 st1 r2 st2) (h3 : Delivers rb 32 st2 z st3) (mem : List Byte) (pkOff skOff : Nat)
    (hpk : pkOff + f.INDCPA_PUBLICKEYBYTES ≤ mem.length) (hsk : skOff + f.SECRETKEYBYTES ≤ mem.length)
    (hd : pkOff = skOff + f.INDCPA_SECRETKEYBYTES ∨ pkOff + f.INDCPA_PUBLICKEYBYTES ≤ skOff ∨ skOff + f.SECRETKEYBYTES ≤ pkOff) :
    crypto_kem_keypair f rb mem pkOff skOff st = .ok (0, writeAt (writeAt mem pkOff (USpec.kemPk f.spec r1 r2)) skOff (USpec.kemSk f.spec r1 r2 z), st3) := by
  have k1 := PK_eq f
  have ks := len_small f
  have k2 := SK_eq f
  have k3 := KSK_eq f
  unfold crypto_kem_keypair
  rw [indcpa_keypair_ok f rb st st1 st2 r1 r2 h1 h2 mem pkOff skOff hpk (by omega), ok_bind]
  dsimp only
  obtain ⟨hl3, hr3⟩ := h3
  have e0 : USpec.pkeKeyGenPk f.spec (f.sym.prf r1 32) r2 = USpec.kemPk f.spec r1 r2 := rfl
  rw [e0]
  have l1 : (USpec.kemPk f.spec r1 r2).length = f.P.L * 320 + 32 := length_kemPk f _ _ h1.1
  have l2 : (USpec.pkeKeyGenSk f.spec r2).length = f.P.L * (32 * f.EQ) := length_pkeKeyGenSk _ _
  have l4 := length_H f (USpec.kemPk f.spec r1 r2)
  have eSK : USpec.kemSk f.spec r1 r2 z = USpec.pkeKeyGenSk f.spec r2 ++ USpec.kemPk f.spec r1 r2 ++ f.sym.H (USpec.kemPk f.spec r1 r2) ++ z := rfl
  rw [eSK]
  generalize USpec.kemPk f.spec r1 r2 = PK at *
  generalize USpec.pkeKeyGenSk f.spec r2 = S at *
  have c1 : writeAt (writeAt mem skOff S) pkOff PK = writeAt (writeAt mem pkOff PK) skOff S := Saber.InPlace.writeAt_comm _ _ _ _ _ (by omega) (by omega) (by omega)
  rw [c1]
  have lW : (writeAt mem pkOff PK).length = mem.length := length_writeAt _ _ _ (by omega)
  have rW : ((writeAt mem pkOff PK).drop pkOff).take f.INDCPA_PUBLICKEYBYTES = PK := by
    rw [k1, ← l1]; exact writeAt_read _ _ _ (by omega)
  generalize hW : writeAt mem pkOff PK = W at *
  have lWS : (writeAt W skOff S).length = mem.length := by rw [length_writeAt _ _ _ (by omega), lW]
  rw [Saber.InPlace.copy_ok _ _ _ _ (by omega) (by omega) (by omega), ok_bind, Saber.InPlace.slice_disj _ _ _ (by omega) _ _ (by omega), rW, writeAt_after _ _ _ _ _ (by omega) (by omega)]
  have l5 : (S ++ PK).length = f.P.L * (32 * f.EQ) + (f.P.L * 320 + 32) := by rw [List.length_append]; omega
  have lWSP : (writeAt W skOff (S ++ PK)).length = mem.length := by rw [length_writeAt _ _ _ (by omega), lW]
  have r2' : ((writeAt W skOff (S ++ PK)).drop pkOff).take f.INDCPA_PUBLICKEYBYTES = PK := by
    rcases hd with hd | hd
    · rw [← writeAt_after W skOff (skOff + f.INDCPA_SECRETKEYBYTES) S PK (by omega) (by omega), hd, k1, ← l1]
      exact writeAt_read _ _ _ (by omega)
    · rw [Saber.InPlace.slice_disj _ _ _ (by omega) _ _ (by omega), rW]
  rw [hash_h_ok1 _ _ _ _ _ _ (by omega) (by omega) (by omega), ok_bind, r2', writeAt_after _ _ _ _ _ (by omega) (by omega)]
  have l6 : (S ++ PK ++ f.sym.H PK).length = f.P.L * (32 * f.EQ) + (f.P.L * 320 + 32) + 32 := by rw [List.length_append]; omega
  rw [hr3 _ _ (by rw [length_writeAt _ _ _ (by omega)]; simp only [KEYBYTES]; omega), ok_bind]
  dsimp only
  rw [writeAt_after _ _ _ _ _ (by simp only [KEYBYTES]; omega) (by omega)]
  rfl

/-- The result if the public key is put inside of the place of the secret vector. -/
theorem crypto_kem_keypair_inside {σ : Type} (f : Cfg) (rb : RandomBytes σ) (st st1 st2 st3 : σ) (r1 r2 z : List Byte)
    (h1 : Delivers rb 32 st r1 st1) (h2 : Delivers rb 32 st1 r2 st2) (h3 : Delivers rb 32 st2 z st3) (mem : List Byte) (d skOff : Nat)
    (hsk : skOff + f.SECRETKEYBYTES ≤ mem.length) (hd : d + f.INDCPA_PUBLICKEYBYTES ≤ f.INDCPA_SECRETKEYBYTES) :
    crypto_kem_keypair f rb mem (skOff + d) skOff st = .ok (0, writeAt mem skOff
      (writeAt (USpec.pkeKeyGenSk f.spec r2) d (USpec.kemPk f.spec r1 r2) ++ USpec.kemPk f.spec r1 r2 ++ f.sym.H (USpec.kemPk f.spec r1 r2) ++ z), st3) := by
  have k1 := PK_eq f
  have ks := len_small f
  have k2 := SK_eq f
  have k3 := KSK_eq f
  unfold crypto_kem_keypair
  rw [indcpa_keypair_ok f rb st st1 st2 r1 r2 h1 h2 mem (skOff + d) skOff (by omega) (by omega), ok_bind]
  dsimp only
  obtain ⟨hl3, hr3⟩ := h3
  have e0 : USpec.pkeKeyGenPk f.spec (f.sym.prf r1 32) r2 = USpec.kemPk f.spec r1 r2 := rfl
  rw [e0]
  have l1 : (USpec.kemPk f.spec r1 r2).length = f.P.L * 320 + 32 := length_kemPk f _ _ h1.1
  have l2 : (USpec.pkeKeyGenSk f.spec r2).length = f.P.L * (32 * f.EQ) := length_pkeKeyGenSk _ _
  have l4 := length_H f (USpec.kemPk f.spec r1 r2)
  generalize USpec.kemPk f.spec r1 r2 = PK at *
  generalize USpec.pkeKeyGenSk f.spec r2 = S at *
  rw [Saber.InPlace.writeAt_inside _ _ _ _ _ (by omega) (by omega)]
  have lT : (writeAt S d PK).length = f.P.L * (32 * f.EQ) := by rw [length_writeAt _ _ _ (by omega), l2]
  have rT : ((writeAt S d PK).drop d).take f.INDCPA_PUBLICKEYBYTES = PK := by
    rw [k1, ← l1]; exact writeAt_read _ _ _ (by omega)
  generalize writeAt S d PK = T at *
  have rd' : ∀ v : List Byte, skOff + (T ++ v).length ≤ mem.length → ((writeAt mem skOff (T ++ v)).drop (skOff + d)).take f.INDCPA_PUBLICKEYBYTES = PK := fun v hv => by
    have h := writeAt_read mem (T ++ v) skOff (by omega)
    have : ((writeAt mem skOff (T ++ v)).drop (skOff + d)).take f.INDCPA_PUBLICKEYBYTES = ((T ++ v).drop d).take f.INDCPA_PUBLICKEYBYTES := by
      conv_rhs => rw [← h]
      rw [List.drop_take, List.drop_drop, List.take_take, min_eq_left (by rw [List.length_append]; omega)]
    rw [this, List.drop_append_of_le_length (by omega), List.take_append_of_le_length (by rw [List.length_drop]; omega), rT]
  have lW : (writeAt mem skOff T).length = mem.length := length_writeAt _ _ _ (by omega)
  have r0 := rd' [] (by rw [List.append_nil]; omega)
  rw [List.append_nil] at r0
  rw [Saber.InPlace.copy_ok _ _ _ _ (by omega) (by omega) (by omega), ok_bind, r0, writeAt_after _ _ _ _ _ (by omega) (by omega)]
  have l5 : (T ++ PK).length = f.P.L * (32 * f.EQ) + (f.P.L * 320 + 32) := by rw [List.length_append]; omega
  have lWSP : (writeAt mem skOff (T ++ PK)).length = mem.length := length_writeAt _ _ _ (by omega)
  rw [hash_h_ok1 _ _ _ _ _ _ (by omega) (by omega) (by omega), ok_bind, rd' PK (by omega), writeAt_after _ _ _ _ _ (by omega) (by omega)]
  have l6 : (T ++ PK ++ f.sym.H PK).length = f.P.L * (32 * f.EQ) + (f.P.L * 320 + 32) + 32 := by rw [List.length_append]; omega
  rw [hr3 _ _ (by rw [length_writeAt _ _ _ (by omega)]; simp only [KEYBYTES]; omega), ok_bind]
  dsimp only
  rw [writeAt_after _ _ _ _ _ (by simp only [KEYBYTES]; omega) (by omega)]
  rfl

/-- The result of key generation for any overlap of the two keys -/
theorem crypto_kem_keypair_any {σ : Type} (f : Cfg) (rb : RandomBytes σ) (st st1 st2 st3 : σ) (r1 r2 z : List Byte)
    (h1 : Delivers rb 32 st r1 st1) (h2 : Delivers rb 32 st1 r2 st2) (h3 : Delivers rb 32 st2 z st3) (mem : List Byte) (pkOff skOff : Nat)
    (hpk : pkOff + f.INDCPA_PUBLICKEYBYTES ≤ mem.length) (hsk : skOff + f.SECRETKEYBYTES ≤ mem.length) (mem2 mem3 : List Byte)
    (e2 : mem2 = writeAt (writeAt mem skOff (USpec.pkeKeyGenSk f.spec r2)) pkOff (USpec.kemPk f.spec r1 r2))
    (e3 : mem3 = writeAt mem2 (skOff + f.INDCPA_SECRETKEYBYTES)
      ((List.range f.INDCPA_PUBLICKEYBYTES).map fun i => (USpec.kemPk f.spec r1 r2).getD (i % (skOff + f.INDCPA_SECRETKEYBYTES - pkOff)) 0)) :
    crypto_kem_keypair f rb mem pkOff skOff st = .ok (0, writeAt (writeAt mem3 (skOff + (f.SECRETKEYBYTES - 64))
      (f.sym.H ((mem3.drop pkOff).take f.INDCPA_PUBLICKEYBYTES))) (skOff + (f.SECRETKEYBYTES - 32)) z, st3) := by
  have k1 := PK_eq f
  have ks := len_small f
  have k2 := SK_eq f
  have k3 := KSK_eq f
  have l1 : (USpec.kemPk f.spec r1 r2).length = f.INDCPA_PUBLICKEYBYTES := by rw [length_kemPk f _ _ h1.1, k1]
  have l2 : (USpec.pkeKeyGenSk f.spec r2).length = f.INDCPA_SECRETKEYBYTES := by rw [k2]; exact length_pkeKeyGenSk _ _
  have lA : (writeAt mem skOff (USpec.pkeKeyGenSk f.spec r2)).length = mem.length := length_writeAt _ _ _ (by omega)
  have lm2 : mem2.length = mem.length := by rw [e2, length_writeAt _ _ _ (by omega), lA]
  have lm3 : mem3.length = mem.length := by rw [e3, length_writeAt _ _ _ (by rw [List.length_map, List.length_range]; omega), lm2]
  unfold crypto_kem_keypair
  rw [indcpa_keypair_ok f rb st st1 st2 r1 r2 h1 h2 mem pkOff skOff hpk (by omega), ok_bind]
  dsimp only
  obtain ⟨hl3, hr3⟩ := h3
  have e0 : writeAt (writeAt mem skOff (USpec.pkeKeyGenSk f.spec r2)) pkOff (USpec.pkeKeyGenPk f.spec (f.sym.prf r1 32) r2) = mem2 := e2.symm
  have ec : ((List.range f.INDCPA_PUBLICKEYBYTES).map fun i => mem2.getD (pkOff + i % (skOff + f.INDCPA_SECRETKEYBYTES - pkOff)) 0) =
      (List.range f.INDCPA_PUBLICKEYBYTES).map fun i => (USpec.kemPk f.spec r1 r2).getD (i % (skOff + f.INDCPA_SECRETKEYBYTES - pkOff)) 0 := by
    apply List.map_congr_left
    intro i hi
    have hi' := List.mem_range.1 hi
    have := Nat.mod_le i (skOff + f.INDCPA_SECRETKEYBYTES - pkOff)
    rw [e2, List.getD_eq_getElem?_getD, Saber.InPlace.getElem?_writeAt _ _ _ (by omega), if_pos (by omega), List.getD_eq_getElem?_getD]
    congr 2; omega
  rw [e0, Saber.InPlace.copy_any _ _ _ _ (by omega) (by omega), ok_bind, ec, ← e3]
  have l4 := length_H f ((mem3.drop pkOff).take f.INDCPA_PUBLICKEYBYTES)
  rw [hash_h_ok1 _ _ _ _ _ _ (by omega) (by omega) (by omega), ok_bind, hr3 _ _ (by rw [length_writeAt _ _ _ (by omega)]; simp only [KEYBYTES]; omega), ok_bind]
  rfl

end Saber.U.InPlace
