import Verif.Model.U.Indcpa
import Verif.Proof.U.Poly
/-!
# Proofs about `SABER_indcpa.c` of uSaber-90s
-/
namespace Saber.U
open Spec

theorem h1_cases (f : Cfg) : (f.EQ = 12 ∧ h1 f = 2 ∧ USpec.h1 f.EQ = 2) ∨ (f.EQ = 13 ∧ h1 f = 4 ∧ USpec.h1 f.EQ = 4) := by
  obtain ⟨P, u, s⟩ := f
  cases u <;> simp [h1, USpec.h1, Cfg.EQ, EP]

theorem roundRow_ok (f : Cfg) (row : List (BitVec 16)) (hl : row.length = 256) :
    Ok (loop N row fun j row => do
      let x ← rd row j
      wr row j (u16 (isar (← iadd (prom x) (h1 f)) (f.EQ - EP)))) fun r => r.length = 256 ∧ ∀ k, toP r k = (toP row k + h1 f) / 2 ^ (f.EQ - 10) := by
  rw [loop_rows 256 row hl 0 (fun j => u16 ((prom (row.getD j 0) + h1 f) / 2 ^ (f.EQ - 10)))]
  · refine Ok.pure ⟨by simp, fun k => ?_⟩
    have := prom_range (row.getD k.val 0)
    show (((((List.range 256).map fun j => u16 ((prom (row.getD j 0) + h1 f) / 2 ^ (f.EQ - 10))).getD k.val 0).toNat : Nat) : Int)
      = (prom (row.getD k.val 0) + h1 f) / 2 ^ (f.EQ - 10)
    rw [getD_map_range _ _ _ _ k.isLt]
    generalize prom (row.getD k.val 0) = x at *
    rcases h1_cases f with ⟨e, h, -⟩ | ⟨e, h, -⟩ <;> rw [e, h] <;> exact u16_small (by norm_num; omega) (by norm_num; omega)
  · intro j a' hj ha hr
    have := prom_range (row.getD j 0)
    rw [rd_ok 0 (by omega), ok_bind, hr, iadd_ok (by rcases h1_cases f with ⟨e, h, -⟩ | ⟨e, h, -⟩ <;> rw [h] <;> omega), ok_bind, wr_ok (by omega)]
    rfl

theorem roundVec_ok (f : Cfg) (b : List (List (BitVec 16))) (hb : IsVec f.P.L b) :
    Ok (roundVec f b) fun r => IsVec f.P.L r ∧ ∀ i k, toV f.P.L r i k = (toV f.P.L b i k + h1 f) / 2 ^ (f.EQ - 10) := by
  unfold roundVec
  refine (loop_inv (fun n (r : List (List (BitVec 16))) => IsVec f.P.L r ∧ ∀ i, i < f.P.L → ∀ k, toP (r.getD i []) k =
    if i < n then (toP (b.getD i []) k + h1 f) / 2 ^ (f.EQ - 10) else toP (b.getD i []) k) ⟨hb, fun i _ k => by simp⟩ ?_).mono ?_
  · rintro i r hi ⟨hv, h⟩
    refine (rowLoop_ok N i [] r (by rw [hv.1]; exact hi) _ _ _ ?_ (roundRow_ok f (r.getD i []) (hv.2 i hi))).mono ?_
    · intro j r hj hir
      rw [rd_ok [] hir, ok_bind]
      simp only [bind_assoc]
    · rintro r' ⟨v, ⟨hvl, hvm⟩, rfl⟩
      refine ⟨⟨by simp [hv.1], ?_⟩, ?_⟩
      · intro i' hi'
        rw [getD_set]; split
        · exact hvl
        · exact hv.2 i' hi'
      · intro i' hi' k
        rw [getD_set]
        by_cases hii : i = i'
        · subst hii
          rw [if_pos ⟨rfl, by rw [hv.1]; exact hi⟩, hvm k, if_pos (by omega), h i hi k, if_neg (by omega)]
        · rw [if_neg (by tauto), h i' hi' k]
          by_cases h3 : i' < i
          · rw [if_pos h3, if_pos (by omega)]
          · rw [if_neg h3, if_neg (by omega)]
  · rintro r ⟨hv, h⟩
    refine ⟨hv, fun i k => ?_⟩
    have := h i.val i.isLt k
    rwa [if_pos i.isLt] at this

theorem roundP_congr (f : Cfg) {y : Poly} {x : Poly} (h : EqMod ((2 ^ f.EQ : Nat) : Int) y x) :
    EqMod 1024 (fun k => (y k + h1 f) / 2 ^ (f.EQ - 10)) (USpec.roundP f.EQ x) := by
  intro k
  have := h k
  simp only [USpec.roundP]
  rcases h1_cases f with ⟨e, h, h'⟩ | ⟨e, h, h'⟩ <;> rw [e] at h' this ⊢ <;> rw [h, h'] <;> norm_num at this ⊢ <;> omega

theorem encRound_ok (f : Cfg) (vp mp : List (BitVec 16)) (hv : vp.length = 256) (hm : mp.length = 256) :
    Ok (encRound f vp mp) fun r => r.length = 256 ∧
      ∀ k, toP r k = ((toP vp k - 512 * toP mp k + h1 f) / 2 ^ (10 - f.P.ET)) % 65536 := by
  unfold encRound
  rw [loop_rows 256 vp hv 0 (fun j => u16 ((prom (vp.getD j 0) - 512 * prom (mp.getD j 0) + h1 f) / 2 ^ (10 - f.P.ET)))]
  · refine Ok.pure ⟨by simp, fun k => ?_⟩
    show (((((List.range 256).map fun j => u16 ((prom (vp.getD j 0) - 512 * prom (mp.getD j 0) + h1 f) / 2 ^ (10 - f.P.ET))).getD k.val 0).toNat : Nat) : Int)
      = ((prom (vp.getD k.val 0) - 512 * prom (mp.getD k.val 0) + h1 f) / 2 ^ (10 - f.P.ET)) % 65536
    rw [getD_map_range _ _ _ _ k.isLt, u16_mod]
  · intro j a' hj ha hr
    have h1' := prom_range (vp.getD j 0)
    have h2' := prom_range (mp.getD j 0)
    rw [rd_ok 0 (by omega), ok_bind, hr, rd_ok 0 (by omega), ok_bind,
      ishl_ok (a := prom (mp.getD j 0)) (k := EP - 1) ⟨h2'.1, by simp only [EP]; omega⟩ (by decide), ok_bind,
      isub_ok (by simp only [EP]; omega), ok_bind, iadd_ok (by rcases h1_cases f with ⟨e, h, -⟩ | ⟨e, h, -⟩ <;> rw [h] <;> simp only [EP] <;> omega), ok_bind, wr_ok (by omega)]
    have e : prom (vp.getD j 0) - prom (mp.getD j 0) * 2 ^ (EP - 1) + h1 f = prom (vp.getD j 0) - 512 * prom (mp.getD j 0) + h1 f := by
      simp only [EP]; omega
    rw [e]; rfl

theorem encodeMsg_congr (f : Cfg) {y v m m' : Poly} (hy : EqMod 1024 y v) (hm : ∀ k, m' k = m k) :
    EqMod (2 ^ f.P.ET) (fun k => ((y k - 512 * m' k + h1 f) / 2 ^ (10 - f.P.ET)) % 65536) (USpec.encodeMsg f.EQ f.P.ET v m) := by
  intro k
  have := hy k
  beta_reduce
  rw [hm k]
  obtain ⟨P, u, s⟩ := f
  cases u <;> cases P <;> simp [USpec.encodeMsg, PSet.ET, USpec.h1, h1, Cfg.EQ, EP] <;> omega

theorem decRound_ok (f : Cfg) (v cm : List (BitVec 16)) (hv : v.length = 256) (hm : cm.length = 256) :
    Ok (decRound f v cm) fun r => r.length = 256 ∧
      ∀ k, toP r k = ((toP v k + h2 f - 2 ^ (10 - f.P.ET) * toP cm k) / 512) % 65536 := by
  unfold decRound
  rw [loop_rows 256 v hv 0 (fun j => u16 ((prom (v.getD j 0) + h2 f - 2 ^ (10 - f.P.ET) * prom (cm.getD j 0)) / 512))]
  · refine Ok.pure ⟨by simp, fun k => ?_⟩
    show (((((List.range 256).map fun j => u16 ((prom (v.getD j 0) + h2 f - 2 ^ (10 - f.P.ET) * prom (cm.getD j 0)) / 512)).getD k.val 0).toNat : Nat) : Int)
      = ((prom (v.getD k.val 0) + h2 f - 2 ^ (10 - f.P.ET) * prom (cm.getD k.val 0)) / 512) % 65536
    rw [getD_map_range _ _ _ _ k.isLt, u16_mod]
  · intro j a' hj ha hr
    have h1' := prom_range (v.getD j 0)
    have h2' := prom_range (cm.getD j 0)
    have hh : 0 ≤ h2 f ∧ h2 f ≤ 1024 := by
      obtain ⟨P, u, s⟩ := f
      cases u <;> cases P <;> cases s <;> decide
    have hp : ∃ c : Int, (2 : Int) ^ (EP - f.P.ET) = c ∧ 1 ≤ c ∧ c ≤ 128 := ⟨_, rfl, by cases f.P <;> decide⟩
    obtain ⟨c, hc, hc1, hc2⟩ := hp
    have hmul : prom (cm.getD j 0) * c ≤ 65536 * 128 := Int.mul_le_mul (by omega) hc2 (by omega) (by omega)
    have hmul0 : 0 ≤ prom (cm.getD j 0) * c := Int.mul_nonneg (by omega) (by omega)
    rw [rd_ok 0 (by omega), ok_bind, hr, rd_ok 0 (by omega), ok_bind, iadd_ok (by omega), ok_bind,
      ishl_ok (a := prom (cm.getD j 0)) (k := EP - f.P.ET) ⟨h2'.1, by rw [hc]; omega⟩ (by cases f.P <;> decide), ok_bind, isub_ok (by rw [hc]; omega), ok_bind, wr_ok (by omega)]
    rw [mul_comm (prom (cm.getD j 0))]
    rfl

theorem decodeMsg_congr (f : Cfg) {y v c : Poly} (hy : EqMod 1024 y v) :
    EqMod (2 ^ 1) (fun k => ((y k + h2 f - 2 ^ (10 - f.P.ET) * c k) / 512) % 65536) (USpec.decodeMsg f.EQ f.P.ET v c) := by
  intro k
  have := hy k
  obtain ⟨P, u, s⟩ := f
  cases u <;> cases P <;> simp [USpec.decodeMsg, PSet.ET, USpec.h2, h2, Cfg.EQ, EP] <;> omega

theorem q_dvd (f : Cfg) : ((2 ^ f.EQ : Nat) : Int) ∣ 8192 := by
  rcases h1_cases f with ⟨e, -, -⟩ | ⟨e, -, -⟩ <;> rw [e] <;> decide

theorem q_dvd16 (f : Cfg) : ((2 ^ f.EQ : Nat) : Int) ∣ 65536 := Int.dvd_trans (q_dvd f) (by decide)

theorem EQ_pos (f : Cfg) : 0 < f.EQ := by
  rcases h1_cases f with ⟨e, -, -⟩ | ⟨e, -, -⟩ <;> rw [e] <;> decide

theorem PK_eq (f : Cfg) : f.INDCPA_PUBLICKEYBYTES = f.P.L * 320 + 32 := rfl
theorem SK_eq (f : Cfg) : f.INDCPA_SECRETKEYBYTES = f.P.L * (32 * f.EQ) := POLYVECBYTES_eq f
theorem CT_eq (f : Cfg) : f.BYTES_CCA_DEC = f.P.L * 320 + 32 * f.P.ET := by
  show f.P.L * 320 + f.P.ET * N / 8 = _
  rw [show N = 8 * 32 from rfl]; omega

theorem indcpa_keypair_ok {σ : Type} (f : Cfg) (rb : RandomBytes σ) (st st1 st2 : σ) (r1 r2 : List Byte)
    (hd1 : Delivers rb 32 st r1 st1) (hd2 : Delivers rb 32 st1 r2 st2)
    (pk sk : List Byte) (hpk : pk.length = f.INDCPA_PUBLICKEYBYTES) (hsk : f.INDCPA_SECRETKEYBYTES ≤ sk.length) :
    indcpa_kem_keypair f rb pk sk st =
      .ok (USpec.pkeKeyGenPk f.spec (f.sym.prf r1 32) r2, writeAt sk 0 (USpec.pkeKeyGenSk f.spec r2), st2) := by
  obtain ⟨hl1, hr1⟩ := hd1
  obtain ⟨hl2, hr2⟩ := hd2
  unfold indcpa_kem_keypair
  rw [hr1 _ _ (by simp), ok_bind]
  dsimp only
  rw [writeAt_full _ _ (by simp [hl1])]
  rw [prf_ok _ _ _ _ _ _ (by simp [hl1]) (by simp [hl1]), ok_bind, List.drop_zero, List.take_of_length_le (by simp [hl1]),
    writeAt_full _ _ (by rw [length_prf f r1 32 hl1, hl1]), hr2 _ _ (by simp), ok_bind]
  dsimp only
  rw [writeAt_full _ _ (by simp [hl2])]
  have hlA := length_prf f r1 32 hl1
  generalize f.sym.prf r1 32 = seedA at *
  rw [GenMatrix_ok f _ (isMat_uninitMat _ _) _ _ (by omega), ok_bind, GenSecret_ok f _ (isVec_uninitVec _ _) _ _ (by omega), ok_bind,
    List.drop_zero, List.drop_zero, List.take_of_length_le (show seedA.length ≤ 32 by omega), List.take_of_length_le (show r2.length ≤ 32 by omega)]
  obtain ⟨b, hb, hbv, hbm⟩ := MatrixVectorMul_ok f.P (ofM (USpec.genMatrix f.spec seedA)) (ofV (USpec.genSecret f.spec r2)) (zeroVec f.P.L) 1
    (isMat_ofM _) (isVec_ofV _) (isVec_zeroVec _)
  rw [hb, ok_bind]
  obtain ⟨b', hb', hbv', hbm'⟩ := roundVec_ok f b hbv
  rw [hb', ok_bind, POLVECq2BS_ok f sk 0 _ (isVec_ofV _) (by
    have := SK_eq f
    omega), ok_bind]
  have hpl : f.INDCPA_PUBLICKEYBYTES = f.P.L * 320 + 32 := rfl
  rw [POLVECp2BS_ok f.P pk 0 _ hbv' (by omega), ok_bind]
  have epk : packVec 10 (toV f.P.L b') = packVec 10 (USpec.pubVec f.spec seedA r2) := by
    apply packVec_congr (by omega)
    intro i
    have : (fun k => (toV f.P.L b i k + h1 f) / 2 ^ (f.EQ - 10)) = toV f.P.L b' i := by funext k; rw [hbm']
    rw [← this]
    apply roundP_congr f
    refine EqMod.trans (EqMod.of_dvd (q_dvd f) (hbm i)) ?_
    simp only [toV_zeroVec, zero_add, if_true]
    apply matVec_congr (m := 2 ^ f.EQ)
    · intro i j
      unfold transpose
      rw [toM_ofM]; exact toP_ofP_mod _ _ (q_dvd16 f)
    · intro j
      rw [toV_ofV]; exact toP_ofP_mod _ _ (q_dvd16 f)
  have esk : packVec f.EQ (toV f.P.L (ofV (USpec.genSecret f.spec r2))) = USpec.pkeKeyGenSk f.spec r2 := by
    apply packVec_congr (EQ_pos f)
    intro i
    rw [toV_ofV]; exact toP_ofP_mod _ _ (by have := q_dvd16 f; push_cast at this; exact this)
  rw [epk, esk]
  have hlp : (packVec 10 (USpec.pubVec f.spec seedA r2)).length = f.P.L * 320 := length_packVec _ _ _
  have e1 : f.POLYVECCOMPRESSEDBYTES = f.P.L * 320 := rfl
  have e2 : SEEDBYTES = 32 := rfl
  rw [memcpy_ok _ _ _ _ _ (by omega) (by rw [length_writeAt _ _ _ (by omega)]; omega), ok_bind, List.drop_zero,
    List.take_of_length_le (by omega), e1, ← hlp, writeAt_concat _ _ _ (by omega)]
  rfl

theorem indcpa_enc_ok (f : Cfg) (m : List Byte) (mOff : Nat) (seed : List Byte) (seedOff : Nat) (pk : List Byte) (pkOff : Nat)
    (c : List Byte) (hm : mOff + 32 ≤ m.length) (hs : seedOff + 32 ≤ seed.length)
    (hpk : pkOff + f.INDCPA_PUBLICKEYBYTES ≤ pk.length) (hc : c.length = f.BYTES_CCA_DEC) :
    indcpa_kem_enc f m mOff seed seedOff pk pkOff c =
      .ok (USpec.pkeEnc f.spec ((m.drop mOff).take 32) ((seed.drop seedOff).take 32) ((pk.drop pkOff).take f.INDCPA_PUBLICKEYBYTES)) := by
  have hpl : f.INDCPA_PUBLICKEYBYTES = f.P.L * 320 + 32 := rfl
  have e1 : f.POLYVECCOMPRESSEDBYTES = f.P.L * 320 := rfl
  have hcl := CT_eq f
  have ePK : ((pk.drop pkOff).take f.INDCPA_PUBLICKEYBYTES).drop (f.P.L * 320) = (pk.drop (pkOff + f.POLYVECCOMPRESSEDBYTES)).take 32 := by
    rw [List.drop_take, List.drop_drop, hpl, e1]; congr 1; omega
  unfold indcpa_kem_enc
  rw [GenMatrix_ok f _ (isMat_uninitMat _ _) _ _ (by omega), ok_bind, GenSecret_ok f _ (isVec_uninitVec _ _) _ _ (by omega), ok_bind,
    ← ePK]
  generalize hPKd : (pk.drop pkOff).take f.INDCPA_PUBLICKEYBYTES = PK
  have hPKl : PK.length = f.P.L * 320 + 32 := by rw [← hPKd]; simp; omega
  generalize hS : (seed.drop seedOff).take 32 = S
  obtain ⟨b, hb, hbv, hbm⟩ := MatrixVectorMul_ok f.P (ofM (USpec.genMatrix f.spec (PK.drop (f.P.L * 320)))) (ofV (USpec.genSecret f.spec S)) (zeroVec f.P.L) 0
    (isMat_ofM _) (isVec_ofV _) (isVec_zeroVec _)
  rw [hb, ok_bind]
  obtain ⟨b', hb', hbv', hbm'⟩ := roundVec_ok f b hbv
  rw [hb', ok_bind, POLVECp2BS_ok f.P c 0 _ hbv' (by omega), ok_bind, BS2POLVECp_ok f.P pk pkOff _ (isVec_uninitVec _ _) (by omega), ok_bind]
  obtain ⟨vp, hvp, hvl, hvm⟩ := InnerProd_ok f.P (ofV (unpackVec 10 f.P.L (pk.drop pkOff))) (ofV (USpec.genSecret f.spec S)) (List.replicate N 0)
    (isVec_ofV _) (isVec_ofV _) (by simp)
  rw [hvp, ok_bind, BS2POLmsg_ok m mOff _ (length_uninit _ _ _) (by omega), ok_bind]
  obtain ⟨w, hw, hwl, hwm⟩ := encRound_ok f vp (ofP (unpack 1 (m.drop mOff))) hvl (by simp)
  have ebp : packVec 10 (toV f.P.L b') =
      packVec 10 (fun i => USpec.roundP f.EQ (matVec (USpec.genMatrix f.spec (PK.drop (f.P.L * 320))) (USpec.genSecret f.spec S) i)) := by
    apply packVec_congr (by omega)
    intro i
    have : (fun k => (toV f.P.L b i k + h1 f) / 2 ^ (f.EQ - 10)) = toV f.P.L b' i := by funext k; rw [hbm']
    rw [← this]
    apply roundP_congr f
    refine EqMod.trans (EqMod.of_dvd (q_dvd f) (hbm i)) ?_
    simp only [toV_zeroVec, zero_add, show ¬ ((0 : Int) = 1) by decide, if_false]
    apply matVec_congr (m := 2 ^ f.EQ)
    · intro i j
      rw [toM_ofM]; exact toP_ofP_mod _ _ (q_dvd16 f)
    · intro j
      rw [toV_ofV]; exact toP_ofP_mod _ _ (q_dvd16 f)
  have eb : ∀ i, unpackVec 10 f.P.L (pk.drop pkOff) i = unpackVec 10 f.P.L PK i := by
    intro i
    rw [← hPKd, unpackVec_take _ _ _ _ (by omega)]
  have em : pack f.P.ET (toP w) = pack f.P.ET (USpec.encodeMsg f.EQ f.P.ET (innerProd (unpackVec 10 f.P.L PK) (USpec.genSecret f.spec S)) (unpack 1 ((m.drop mOff).take 32))) := by
    apply pack_congr (by cases f.P <;> decide)
    have : toP w = fun k => ((toP vp k - 512 * toP (ofP (unpack 1 (m.drop mOff))) k + h1 f) / 2 ^ (10 - f.P.ET)) % 65536 := by
      funext k; rw [hwm]
    rw [this]
    apply encodeMsg_congr
    · refine EqMod.trans (EqMod.of_dvd (m := 8192) (by decide) hvm) ?_
      simp only [toP_zero, zero_add]
      apply innerProd_congr (m := 1024)
      · intro j
        rw [toV_ofV, ← eb]; exact toP_ofP_mod _ _ (by decide)
      · intro j
        rw [toV_ofV]; exact toP_ofP_mod _ _ (by decide)
    · intro k
      have h1 := unpack_range 1 (m.drop mOff) k
      rw [toP_ofP, Int.emod_eq_of_lt h1.1 (by omega)]
      rw [unpack_take _ _ _ (by omega)]
  have hlb : (packVec 10 (fun i => USpec.roundP f.EQ (matVec (USpec.genMatrix f.spec (PK.drop (f.P.L * 320))) (USpec.genSecret f.spec S) i))).length = f.P.L * 320 :=
    length_packVec _ _ _
  rw [hw, ok_bind, ebp, POLT2BS_ok f.P _ _ _ hwl (by rw [length_writeAt _ _ _ (by omega)]; omega), em, e1]
  have := writeAt_concat c _ (pack f.P.ET (USpec.encodeMsg f.EQ f.P.ET (innerProd (unpackVec 10 f.P.L PK) (USpec.genSecret f.spec S)) (unpack 1 ((m.drop mOff).take 32))))
    (show c.length = (packVec 10 (fun i => USpec.roundP f.EQ (matVec (USpec.genMatrix f.spec (PK.drop (f.P.L * 320))) (USpec.genSecret f.spec S) i))).length + _ by
      rw [hlb, length_pack]; omega)
  rw [hlb] at this
  rw [this]
  rfl

theorem indcpa_dec_ok (f : Cfg) (sk c m : List Byte) (hsk : f.INDCPA_SECRETKEYBYTES ≤ sk.length) (hc : f.BYTES_CCA_DEC ≤ c.length)
    (hm : 32 ≤ m.length) :
    indcpa_kem_dec f sk c m = .ok (writeAt m 0 (USpec.pkeDec f.spec (sk.take f.INDCPA_SECRETKEYBYTES) (c.take f.BYTES_CCA_DEC))) := by
  have hsl := SK_eq f
  have e1 : f.POLYVECCOMPRESSEDBYTES = f.P.L * 320 := rfl
  have hcl := CT_eq f
  unfold indcpa_kem_dec
  rw [BS2POLVECq_ok f sk 0 _ (isVec_uninitVec _ _) (by omega), ok_bind, BS2POLVECp_ok f.P c 0 _ (isVec_uninitVec _ _) (by omega), ok_bind,
    List.drop_zero, List.drop_zero]
  obtain ⟨v, hv, hvl, hvm⟩ := InnerProd_ok f.P (ofV (unpackVec 10 f.P.L c)) (ofV (unpackVec f.EQ f.P.L sk)) (List.replicate N 0)
    (isVec_ofV _) (isVec_ofV _) (by simp)
  rw [hv, ok_bind, BS2POLT_ok f.P c _ _ (length_uninit _ _ _) (by omega), ok_bind, e1]
  obtain ⟨w, hw, hwl, hwm⟩ := decRound_ok f v (ofP (unpack f.P.ET (c.drop (f.P.L * 320)))) hvl (by simp)
  rw [hw, ok_bind, POLmsg2BS_ok _ _ _ hwl (by omega)]
  unfold USpec.pkeDec
  refine congrArg (fun z => Except.ok (writeAt m 0 z)) ?_
  apply pack_congr (by omega)
  have hcm : ∀ k, toP (ofP (unpack f.P.ET (c.drop (f.P.L * 320)))) k = unpack f.P.ET ((c.take f.BYTES_CCA_DEC).drop (f.P.L * 320)) k := by
    intro k
    have h1 := unpack_range f.P.ET (c.drop (f.P.L * 320)) k
    have h2 : (2 : Int) ^ f.P.ET ≤ 65536 := by cases f.P <;> decide
    rw [toP_ofP, Int.emod_eq_of_lt h1.1 (by omega)]
    rw [List.drop_take, unpack_take _ _ _ (by omega)]
  have : toP w = fun k => ((toP v k + h2 f - 2 ^ (10 - f.P.ET) * unpack f.P.ET ((c.take f.BYTES_CCA_DEC).drop (f.P.L * 320)) k) / 512) % 65536 := by
    funext k; rw [hwm, hcm]
  rw [this]
  apply decodeMsg_congr
  refine EqMod.trans (EqMod.of_dvd (m := 8192) (by decide) hvm) ?_
  simp only [toP_zero, zero_add]
  apply innerProd_congr (m := 1024)
  · intro j
    rw [toV_ofV]
    refine EqMod.trans (toP_ofP_mod _ _ (by decide)) ?_
    rw [unpackVec_take _ _ _ _ (by omega)]
    exact EqMod.refl _ _
  · intro j
    rw [toV_ofV]
    refine EqMod.trans (toP_ofP_mod _ _ (by decide)) ?_
    rw [unpackVec_take _ _ _ _ (by rw [EQ_spec]; omega)]
    exact EqMod.refl _ _

end Saber.U
