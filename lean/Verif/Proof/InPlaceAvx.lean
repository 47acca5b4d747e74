import Verif.Model.InPlaceAvx
import Verif.Proof.Avx.Kem
/-!
# Proofs about the AVX2 implementation with all arguments in one object
-/
namespace Saber.Avx.InPlace
open Spec

theorem at_ok {mem : List Byte} {off : Nat} {f : List Byte → CM (List Byte)} {v : List Byte} (h : f (mem.drop off) = .ok (writeAt (mem.drop off) 0 v)) :
    at_ mem off f = .ok (writeAt mem off v) := by
  unfold at_
  rw [h, ok_bind, writeAt_prefix]
  unfold writeAt
  rw [List.drop_drop, List.append_assoc]
  rfl

/-- First part of the ciphertext. -/
def ctHead (P : PSet) (sym : USpec.Sym) (seedA S : List Byte) : List Byte :=
  packVec 10 (fun i => USpec.roundP 13 (matVec (USpec.genMatrix (spec P sym) seedA) (USpec.genSecret (spec P sym) S) i))

theorem length_ctHead (P : PSet) (sym : USpec.Sym) (seedA S : List Byte) : (ctHead P sym seedA S).length = P.L * 320 := length_packVec _ _ _

/-- The public key that `indcpa_kem_enc` sees. -/
def seenPk (P : PSet) (sym : USpec.Sym) (mem : List Byte) (pkOff cOff : Nat) (S : List Byte) : List Byte :=
  ((writeAt mem cOff (ctHead P sym ((mem.drop (pkOff + P.L * 320)).take 32) S)).drop pkOff).take (P.L * 320) ++ (mem.drop (pkOff + P.L * 320)).take 32

theorem indcpa_keypair_ok {σ : Type} {lib : Lib} {sym : USpec.Sym} (hlib : LibOk lib sym) (P : PSet) (rb : RandomBytes σ) (st st1 st2 : σ)
    (r1 r2 : List Byte) (hd1 : Delivers rb 32 st r1 st1) (hd2 : Delivers rb 32 st1 r2 st2)
    (mem : List Byte) (pkOff skOff : Nat) (hpk : pkOff + P.INDCPA_PUBLICKEYBYTES ≤ mem.length) (hsk : skOff + P.INDCPA_SECRETKEYBYTES ≤ mem.length) :
    indcpa_kem_keypair lib P rb mem pkOff skOff st =
      .ok (writeAt (writeAt mem skOff (USpec.pkeKeyGenSk (spec P sym) r2)) pkOff (USpec.pkeKeyGenPk (spec P sym) (sym.prf r1 32) r2), st2) := by
  obtain ⟨hl1, hr1⟩ := hd1
  obtain ⟨hl2, hr2⟩ := hd2
  have hpl : P.INDCPA_PUBLICKEYBYTES = P.L * 320 + 32 := rfl
  have hsl : P.INDCPA_SECRETKEYBYTES = P.L * 416 := rfl
  have hlA := hlib.lenPrf r1 32 hl1
  unfold indcpa_kem_keypair
  rw [hr1 _ _ (by simp), ok_bind]
  dsimp only
  rw [writeAt_full _ _ (by simp [hl1]), show SEEDBYTES = 32 from rfl, hlib.prf _ _ _ _ _ (by decide) (by simp [hl1]) (by simp [hl1]), ok_bind, List.drop_zero,
    List.take_of_length_le (by simp [hl1]), writeAt_full _ _ (by rw [hlA, hl1]), hr2 _ _ (by simp), ok_bind]
  dsimp only
  rw [writeAt_full _ _ (by simp [hl2])]
  generalize sym.prf r1 32 = seedA at *
  rw [GenMatrix_ok hlib P (isMat_uninitMat _ _) hlA, ok_bind, GenSecret_ok hlib P (isVec_uninitVec _ _) (by omega), ok_bind,
    List.drop_zero, List.take_of_length_le (show r2.length ≤ 32 by omega),
    loadVec_eq P (isVV_uninitVV _ _ _) (isVec_ofV _), ok_bind, loadMat_eq P (by simp) (isVVs_uninit P _) (isMat_ofM _), ok_bind]
  obtain ⟨b', h1, h2, h3⟩ := evalAll_ok P (isVV_vecsV P (ofV (redV (USpec.genSecret (spec P sym) r2)))) (isVV_uninitVV 146 P.L 64)
  rw [h1, ok_bind]
  obtain ⟨r, h4, h5, h6⟩ := matrix_ok P 1 (USpec.genMatrix (spec P sym) seedA) (redV (USpec.genSecret (spec P sym) r2)) h2 h3
    (isVV_uninitVV 147 P.L 16)
  rw [h4, ok_bind]
  obtain ⟨r', h7, h8, h9⟩ := truncVec_ok P h5
  rw [h7, ok_bind, at_ok (POLVECq2BS_ok P (isVec_ofV _) (by rw [List.length_drop]; omega)), ok_bind]
  obtain ⟨d, h10, h11, h12⟩ := stored_ok P (isVec_ofV (redV (USpec.genSecret (spec P sym) r2))) h8 h9 h6
  have lq : (packVec 13 (toV P.L (ofV (redV (USpec.genSecret (spec P sym) r2))))).length = P.L * 416 := length_packVec _ _ _
  have lW : (writeAt mem skOff (packVec 13 (toV P.L (ofV (redV (USpec.genSecret (spec P sym) r2)))))).length = mem.length := length_writeAt _ _ _ (by omega)
  rw [h10, ok_bind, at_ok (POLVECp2BS_ok P h11 (by rw [List.length_drop]; omega)), ok_bind, h12]
  have epk : packVec 10 (fun i => USpec.roundP 13 (matVec (if (1 : Int) = 0 then USpec.genMatrix (spec P sym) seedA else
      transpose (USpec.genMatrix (spec P sym) seedA)) (redV (USpec.genSecret (spec P sym) r2)) i)) = packVec 10 (USpec.pubVec (spec P sym) seedA r2) := by
    apply packVec_congr (by omega)
    intro i
    rw [if_neg (by decide)]
    have := roundP_congr (EqMod.refl 8192 (matVec (transpose (USpec.genMatrix (spec P sym) seedA)) (redV (USpec.genSecret (spec P sym) r2)) i))
    refine EqMod.trans (EqMod.symm this) (roundP_congr ?_)
    exact matVec_congr (m := 8192) (fun i j => EqMod.refl _ _) (fun j => redP_eqMod (by decide) _) i
  have esk : packVec 13 (toV P.L (ofV (redV (USpec.genSecret (spec P sym) r2)))) = USpec.pkeKeyGenSk (spec P sym) r2 := by
    apply packVec_congr (k := 13) (by omega)
    intro i
    rw [toV_ofV]; exact toP_ofP_redP _
  rw [epk]
  have hlp : (packVec 10 (USpec.pubVec (spec P sym) seedA r2)).length = P.L * 320 := length_packVec _ _ _
  have e1 : P.POLYVECCOMPRESSEDBYTES = P.L * 320 := rfl
  rw [memcpy_ok _ _ _ _ _ (by omega) (by rw [length_writeAt _ _ _ (by omega)]; omega), ok_bind, List.drop_zero,
    List.take_of_length_le (by omega), e1, writeAt_after _ _ _ _ _ (by omega) (by omega), esk]
  rfl

theorem indcpa_enc_ok {lib : Lib} {sym : USpec.Sym} (hlib : LibOk lib sym) (P : PSet) (m : List Byte) (mOff : Nat) (seed : List Byte)
    (seedOff : Nat) (mem : List Byte) (pkOff cOff : Nat) (hm : mOff + 32 ≤ m.length) (hs : seedOff + 32 ≤ seed.length)
    (hpk : pkOff + P.INDCPA_PUBLICKEYBYTES ≤ mem.length) (hc : cOff + P.BYTES_CCA_DEC ≤ mem.length) :
    indcpa_kem_enc lib P m mOff seed seedOff mem pkOff cOff =
      .ok (writeAt mem cOff (USpec.pkeEnc (spec P sym) ((m.drop mOff).take 32) ((seed.drop seedOff).take 32) (seenPk P sym mem pkOff cOff ((seed.drop seedOff).take 32)))) := by
  have hpl : P.INDCPA_PUBLICKEYBYTES = P.L * 320 + 32 := rfl
  have e1 : P.POLYVECCOMPRESSEDBYTES = P.L * 320 := rfl
  have hcl := CT_eq P
  have hsc := SC_eq P
  unfold indcpa_kem_enc
  rw [show SEEDBYTES = 32 from rfl, memcpy_ok _ _ _ _ _ (by omega) (by simp), ok_bind, writeAt_full _ _ (by simp; omega), e1]
  generalize hS : (seed.drop seedOff).take 32 = S
  generalize hPK : seenPk P sym mem pkOff cOff S = PK
  unfold seenPk at hPK
  have lS : ((mem.drop (pkOff + P.L * 320)).take 32).length = 32 := by simp; omega
  generalize (mem.drop (pkOff + P.L * 320)).take 32 = seedA at *
  have lH := length_ctHead P sym seedA S
  rw [GenMatrix_ok hlib P (isMat_uninitMat _ _) lS, ok_bind, GenSecret_ok hlib P (isVec_uninitVec _ _) (by omega), ok_bind, hS]
  rw [loadVec_eq P (isVV_uninitVV _ _ _) (isVec_ofV _), ok_bind, loadMat_eq P (by simp) (isVVs_uninit P _) (isMat_ofM _), ok_bind]
  obtain ⟨b', h1, h2, h3⟩ := evalAll_ok P (isVV_vecsV P (ofV (redV (USpec.genSecret (spec P sym) S)))) (isVV_uninitVV 155 P.L 64)
  rw [h1, ok_bind]
  obtain ⟨r, h4, h5, h6⟩ := matrix_ok P 0 (USpec.genMatrix (spec P sym) seedA) (redV (USpec.genSecret (spec P sym) S)) h2 h3
    (isVV_uninitVV 156 P.L 16)
  rw [h4, ok_bind]
  obtain ⟨r', h7, h8, h9⟩ := truncVec_ok P h5
  obtain ⟨d, h10, h11, h12⟩ := stored_ok P (isVec_uninitVec 157 P.L) h8 h9 h6
  have ebp : packVec 10 (fun i => USpec.roundP 13 (matVec (if (0 : Int) = 0 then USpec.genMatrix (spec P sym) seedA else
      transpose (USpec.genMatrix (spec P sym) seedA)) (redV (USpec.genSecret (spec P sym) S)) i)) =
      ctHead P sym seedA S := by
    apply packVec_congr (by omega)
    intro i
    rw [if_pos rfl]
    have := roundP_congr (EqMod.refl 8192 (matVec (USpec.genMatrix (spec P sym) seedA) (redV (USpec.genSecret (spec P sym) S)) i))
    refine EqMod.trans (EqMod.symm this) (roundP_congr ?_)
    exact matVec_congr (m := 8192) (fun i j => EqMod.refl _ _) (fun j => redP_eqMod (by decide) _) i
  rw [h7, ok_bind, h10, ok_bind, at_ok (POLVECp2BS_ok P h11 (by rw [List.length_drop]; omega)), ok_bind, h12, ebp]
  have lW : (writeAt mem cOff (ctHead P sym seedA S)).length = mem.length := length_writeAt _ _ _ (by omega)
  generalize hW : writeAt mem cOff (ctHead P sym seedA S) = W at *
  rw [BS2POLVECp_ok P (isVec_uninitVec _ _) (by omega), ok_bind,
    loadVec_eq P (isVV_uninitVV _ _ _) (isVec_ofV _), ok_bind]
  obtain ⟨vp, h13, h14, h15⟩ := inner_ok P (unpackVec 10 P.L (W.drop pkOff)) (redV (USpec.genSecret (spec P sym) S)) h2 h3 (length_uninitVecs 160 16)
  rw [h13, ok_bind]
  obtain ⟨vp', h16, h17, h18⟩ := addH1_ok h14
  rw [h16, ok_bind, BS2POLmsg_ok m mOff _ (length_uninit _ _ _) (by omega), ok_bind]
  obtain ⟨mv, h19, h20, h21⟩ := encodeMessage_ok (length_uninitVecs 162 16) (length_ofP (unpack 1 (m.drop mOff)))
  obtain ⟨w, h22, h23, h24⟩ := truncEnc_ok P h17 h20
  rw [h19, ok_bind, h22, ok_bind, rd_ok [] (by rw [h11.1]; cases P <;> decide), ok_bind, storeRow_ok (h11.2 0 (by cases P <;> decide)) h23, ok_bind,
    SABER_pack_ok P (by simp) (by rw [length_uninit, hsc]), ok_bind, toP_rowOf]
  have lP1 : ((W.drop pkOff).take (P.L * 320)).length = P.L * 320 := by simp; omega
  have eb : ∀ i, unpackVec 10 P.L (W.drop pkOff) i = unpackVec 10 P.L PK i := by
    intro i
    have h1 := unpackVec_take 10 P.L (P.L * 320) (W.drop pkOff) (by omega)
    have h2 := unpackVec_take 10 P.L (P.L * 320) PK (by omega)
    have h3 : PK.take (P.L * 320) = (W.drop pkOff).take (P.L * 320) := by
      rw [← hPK, List.take_append_of_le_length (by omega), List.take_of_length_le (by omega)]
    rw [← h1, ← h2, h3]
  have em : pack P.ET (vecP w) = pack P.ET (USpec.encodeMsg 13 P.ET (innerProd (unpackVec 10 P.L PK) (USpec.genSecret (spec P sym) S)) (unpack 1 ((m.drop mOff).take 32))) := by
    apply pack_congr (by cases P <;> decide)
    have e : vecP w = fun k => ((vecP vp k + 4) % 65536 - (512 * unpack 1 ((m.drop mOff).take 32) k) % 65536) % 1024 / 2 ^ (10 - P.ET) := by
      funext k
      have h1 := unpack_range 1 (m.drop mOff) k
      rw [h24, h18, h21, toP_ofP, Int.emod_eq_of_lt h1.1 (by omega), unpack_take _ _ _ (by omega)]
    rw [e]
    apply encodeMsg_congr
    refine EqMod.trans h15 ?_
    exact innerProd_congr (m := 8192) (fun j => by rw [eb]; exact EqMod.refl _ _) (fun j => redP_eqMod (by decide) _)
  have eP : PK.drop (P.L * 320) = seedA := by
    rw [← hPK, List.drop_append_of_le_length (by omega), List.drop_of_length_le (by omega), List.nil_append]
  have ec : USpec.pkeEnc (spec P sym) ((m.drop mOff).take 32) S PK = ctHead P sym seedA S ++
      pack P.ET (USpec.encodeMsg 13 P.ET (innerProd (unpackVec 10 P.L PK) (USpec.genSecret (spec P sym) S)) (unpack 1 ((m.drop mOff).take 32))) := by
    rw [← eP]; rfl
  have lp : ∀ p, (pack P.ET p).length = 32 * P.ET := fun p => length_pack _ _
  rw [em, hsc, memcpy_ok _ _ _ _ _ (by rw [length_pack]; omega) (by omega), List.drop_zero,
    List.take_of_length_le (by rw [length_pack]), ec, ← hW, writeAt_after _ _ _ _ _ (by omega) (by rw [lp]; omega)]

end Saber.Avx.InPlace
