import Verif.Proof.X4.Indcpa
/-!
# The encryption scheme of SaberX4, lane by lane
-/
namespace Saber.X4
open Spec

theorem stepOk {α β : Type} {m : CM α} {a : α} {f : α → CM β} {r : CM β} (h : m = .ok a) (h' : f a = r) : (m >>= f) = r := by
  rw [h]; exact h'

theorem POLVEC2BSX4_q (bytes : Fam (List Byte)) (off : Fam Nat) (data : Fam (List (List (BitVec 16)))) (hd : ∀ l, IsVec 3 (data l))
    (hb : ∀ l, off l + 1248 ≤ (bytes l).length) :
    POLVEC2BSX4 bytes off data 8192 = .ok fun l => writeAt (bytes l) (off l) (packVec 13 (toV 3 (data l))) := POLVECq2BSX4_ok bytes off data hd hb

theorem POLVEC2BSX4_p (bytes : Fam (List Byte)) (off : Fam Nat) (data : Fam (List (List (BitVec 16)))) (hd : ∀ l, IsVec 3 (data l))
    (hb : ∀ l, off l + 960 ≤ (bytes l).length) :
    POLVEC2BSX4 bytes off data 1024 = .ok fun l => writeAt (bytes l) (off l) (packVec 10 (toV 3 (data l))) := POLVECp2BSX4_ok bytes off data hd hb

theorem BS2POLVECX4_q (bs : Fam (List Byte)) (off : Fam Nat) (data : Fam (List (List Avx.Vec))) (hd : ∀ l, Avx.IsVV 3 16 (data l))
    (hb : ∀ l, off l + 1248 ≤ (bs l).length) :
    BS2POLVECX4 bs off data 8192 = .ok fun l => Avx.vecsV .saber (ofV (unpackVec 13 3 ((bs l).drop (off l)))) := BS2POLVECqX4_ok bs off data hd hb

theorem BS2POLVECX4_p (bs : Fam (List Byte)) (off : Fam Nat) (data : Fam (List (List Avx.Vec))) (hd : ∀ l, Avx.IsVV 3 16 (data l))
    (hb : ∀ l, off l + 960 ≤ (bs l).length) :
    BS2POLVECX4 bs off data 1024 = .ok fun l => Avx.vecsV .saber (ofV (unpackVec 10 3 ((bs l).drop (off l)))) := BS2POLVECpX4_ok bs off data hd hb

/-- Key generation: the first bytes of each secret key and each public key are those of the specification. -/
theorem indcpa_kem_keypair_ok {pk sk seed noiseseed : Fam (List Byte)} (hpk : ∀ l, (pk l).length = 992) (hsk : ∀ l, 1248 ≤ (sk l).length)
    (hs : ∀ l, (seed l).length = 32) (hn : ∀ l, (noiseseed l).length = 32) :
    indcpa_kem_keypair 168 pk sk seed noiseseed =
      .ok (fun l => USpec.pkeKeyGenPk spec (Keccak.shake128 (seed l) 32) (noiseseed l), fun l => writeAt (sk l) 0 (USpec.pkeKeyGenSk spec (noiseseed l))) := by
  unfold indcpa_kem_keypair
  simp only [show K = 3 from rfl]
  have hsh := shake128x4With_ok seed (fun _ => 0) SEEDBYTES seed (fun _ => 0) SEEDBYTES (fun l => by rw [hs l]; decide) (fun l => by rw [hs l]; decide)
  rw [show SHAKE128_RATE = 168 from rfl] at hsh
  rw [hsh, ok_bind]
  have hseed : ∀ l, writeAt (seed l) 0 (Keccak.shake128 (((seed l).drop 0).take SEEDBYTES) SEEDBYTES) = Keccak.shake128 (seed l) 32 := fun l => by
    rw [writeAt_full _ _ (by rw [length_shake128, hs l]), List.drop_zero, List.take_of_length_le (Nat.le_of_eq (hs l))]
  simp only [hseed]
  have hA : ∀ l, (Keccak.shake128 (seed l) 32).length = 32 := fun l => length_shake128 _ _
  generalize hse : (fun l => Keccak.shake128 (seed l) 32) = A
  have hA' : ∀ l, (A l).length = 32 := fun l => by rw [← hse]; exact hA l
  have hAl : ∀ l, Keccak.shake128 (seed l) 32 = A l := fun l => by rw [← hse]
  simp only [hAl]
  rw [GenMatrix4x_ok (fun l => (isVM_uninit _).1) (fun l => (isVM_uninit _).2) hA', ok_bind,
    GenSecret4x_ok (fun l => isVec_uninitVec _ _) (fun l => by rw [hn l]), ok_bind]
  have hnn : ∀ l, ((noiseseed l).drop 0).take 32 = noiseseed l := fun l => by
    rw [List.drop_zero, List.take_of_length_le (Nat.le_of_eq (hn l))]
  simp only [hnn]
  refine stepOk (loadVec4x_ok (by exact fun l => Avx.isVV_uninitVV _ _ _) (by exact fun l => isVec_ofV _)) ?_
  refine stepOk (copyMat4x_ok (by exact fun l => (isVM_uninit _).1) (by exact fun l => (isVM_uninit _).2) (by exact fun l => (isVM_vecsM _).1)
    (by exact fun l => (isVM_vecsM _).2)) ?_
  obtain ⟨r0, h0, h0'⟩ := clearVV4x_ok (v := fun l => Avx.uninitVV (560 + l) 3 16) fun l => Avx.isVV_uninitVV _ _ _
  rw [h0, ok_bind]
  choose b' h1 h2 h3 using fun l : Fin 4 => Avx.evalAll_ok .saber (Avx.isVV_vecsV .saber (ofV (Avx.redV (USpec.genSecret spec (noiseseed l)))))
    (Avx.isVV_uninitVV (570 + l.val) 3 64)
  refine stepOk (evalAll4x_sim.eq h1) ?_
  choose r h4 h5 h6 using fun l : Fin 4 => Avx.matrix_ok .saber 1 (USpec.genMatrix spec (A l)) (Avx.redV (USpec.genSecret spec (noiseseed l))) (h2 l) (h3 l) (h0' l)
  refine stepOk (fourA_ok h4) ?_
  choose r' h7 h8 h9 using fun l : Fin 4 => Avx.truncVec_ok .saber (h5 l)
  refine stepOk (truncVec4x_sim.eq h7) (stepOk (POLVEC2BSX4_q _ _ _ (fun l => isVec_ofV _) (fun l => by have := hsk l; omega)) ?_)
  choose d h10 h11 h12 using fun l : Fin 4 => Avx.stored_ok .saber (isVec_ofV (Avx.redV (USpec.genSecret spec (noiseseed l)))) (h8 l) (h9 l) (h6 l)
  refine stepOk (storeVec4x_ok (by exact fun l => isVec_ofV _) h8 h10) (stepOk (POLVEC2BSX4_p _ _ _ h11 (fun l => by rw [hpk l]; decide)) ?_)
  have h12' : ∀ l, packVec 10 (toV 3 (d l)) = packVec 10 (USpec.pubVec spec (A l) (noiseseed l)) := fun l => by
    refine (h12 l).trans ?_
    apply packVec_congr (by omega)
    intro i
    rw [if_neg (by decide)]
    have := Avx.roundP_congr (EqMod.refl 8192 (matVec (transpose (USpec.genMatrix spec (A l))) (Avx.redV (USpec.genSecret spec (noiseseed l))) i))
    refine EqMod.trans (EqMod.symm this) (Avx.roundP_congr ?_)
    exact matVec_congr (m := 8192) (fun i j => EqMod.refl _ _) (fun j => Avx.redP_eqMod (by decide) _) i
  have esk : ∀ l, packVec 13 (toV 3 (ofV (Avx.redV (USpec.genSecret spec (noiseseed l))))) = USpec.pkeKeyGenSk spec (noiseseed l) := fun l => by
    apply packVec_congr (k := 13) (by omega)
    intro i
    have e : toV 3 (ofV (Avx.redV (USpec.genSecret spec (noiseseed l)))) i = toP (ofP (Avx.redP (USpec.genSecret spec (noiseseed l) i))) := toV_ofV _ i
    rw [e]; exact Avx.toP_ofP_redP _
  have hlp : ∀ l, (packVec 10 (USpec.pubVec spec (A l) (noiseseed l))).length = 960 := fun l => length_packVec _ _ _
  simp only [h12', esk]
  have hlw : ∀ l, (writeAt (pk l) 0 (packVec 10 (USpec.pubVec spec (A l) (noiseseed l)))).length = 992 := fun l => by
    rw [length_writeAt _ _ _ (by rw [hlp l, hpk l]; decide), hpk l]
  have hcopy := copyBytes4x_ok 32 (fun l => writeAt (pk l) 0 (packVec 10 (USpec.pubVec spec (A l) (noiseseed l)))) (fun _ => 960) A (fun _ => 0)
    (fun l => by rw [hlw l]) (fun l => by rw [hA' l])
  simp only [Nat.zero_add] at hcopy
  rw [show SEEDBYTES = 32 from rfl, show PSet.saber.POLYVECCOMPRESSEDBYTES = 960 from rfl, hcopy, ok_bind]
  refine congrArg (fun z => Except.ok (z, _)) (funext fun l => ?_)
  have := writeAt_concat (pk l) (packVec 10 (USpec.pubVec spec (A l) (noiseseed l))) (A l) (by rw [hlp l, hpk l, hA' l])
  rw [hlp l] at this
  rw [List.drop_zero, List.take_of_length_le (Nat.le_of_eq (hA' l)), this]
  rfl

/-- Encryption. -/
theorem indcpa_kem_enc_ok {m noise pk c : Fam (List Byte)} {noiseOff pkOff : Nat} (hm : ∀ l, 32 ≤ (m l).length) (hn : ∀ l, noiseOff + 32 ≤ (noise l).length)
    (hpk : ∀ l, pkOff + 992 ≤ (pk l).length) (hc : ∀ l, (c l).length = 1088) :
    indcpa_kem_enc 168 m noise noiseOff pk pkOff c =
      .ok fun l => USpec.pkeEnc spec ((m l).take 32) (((noise l).drop noiseOff).take 32) (((pk l).drop pkOff).take 992) := by
  unfold indcpa_kem_enc
  simp only [show K = 3 from rfl]
  have hcopy := copyBytes4x_ok 32 (fun l : Fin 4 => uninit 8 (600 + l.val) 32) (fun _ => 0) pk (fun _ => pkOff + 960)
    (fun l => by simp) (fun l => by have := hpk l; omega)
  simp only [Nat.zero_add] at hcopy
  rw [show SEEDBYTES = 32 from rfl, show PSet.saber.POLYVECCOMPRESSEDBYTES = 960 from rfl, hcopy, ok_bind]
  have ePK : ∀ l : Fin 4, writeAt (uninit 8 (600 + l.val) 32) 0 (((pk l).drop (pkOff + 960)).take 32) = (((pk l).drop pkOff).take 992).drop 960 := fun l => by
    have := hpk l
    rw [writeAt_full _ _ (by simp; omega), List.drop_take, List.drop_drop]
  simp only [ePK]
  generalize hPKd : (fun l => ((pk l).drop pkOff).take 992) = PK
  have hPK : ∀ l, ((pk l).drop pkOff).take 992 = PK l := fun l => by rw [← hPKd]
  have hPKl : ∀ l, (PK l).length = 992 := fun l => by have := hpk l; rw [← hPK l]; simp; omega
  simp only [hPK]
  rw [GenMatrix4x_ok (fun l => (isVM_uninit _).1) (fun l => (isVM_uninit _).2) (fun l => by simp [hPKl l]), ok_bind,
    GenSecret4x_ok (fun l => isVec_uninitVec _ _) hn, ok_bind]
  generalize hSd : (fun l => ((noise l).drop noiseOff).take 32) = S
  have hS : ∀ l, ((noise l).drop noiseOff).take 32 = S l := fun l => by rw [← hSd]
  simp only [hS]
  refine stepOk (loadVec4x_ok (by exact fun l => Avx.isVV_uninitVV _ _ _) (by exact fun l => isVec_ofV _)) ?_
  refine stepOk (copyMat4x_ok (by exact fun l => (isVM_uninit _).1) (by exact fun l => (isVM_uninit _).2) (by exact fun l => (isVM_vecsM _).1)
    (by exact fun l => (isVM_vecsM _).2)) ?_
  obtain ⟨r0, h0, h0'⟩ := clearVV4x_ok (v := fun l => Avx.uninitVV (650 + l) 3 16) fun l => Avx.isVV_uninitVV _ _ _
  rw [h0, ok_bind]
  choose b' h1 h2 h3 using fun l : Fin 4 => Avx.evalAll_ok .saber (Avx.isVV_vecsV .saber (ofV (Avx.redV (USpec.genSecret spec (S l)))))
    (Avx.isVV_uninitVV (660 + l.val) 3 64)
  refine stepOk (evalAll4x_sim.eq h1) ?_
  choose r h4 h5 h6 using fun l : Fin 4 => Avx.matrix_ok .saber 0 (USpec.genMatrix spec ((PK l).drop 960)) (Avx.redV (USpec.genSecret spec (S l))) (h2 l) (h3 l) (h0' l)
  refine stepOk (fourA_ok h4) ?_
  choose r' h7 h8 h9 using fun l : Fin 4 => Avx.truncVec_ok .saber (h5 l)
  choose d h10 h11 h12 using fun l : Fin 4 => Avx.stored_ok .saber (isVec_uninitVec (670 + l.val) 3) (h8 l) (h9 l) (h6 l)
  refine stepOk (truncVec4x_sim.eq h7) (stepOk (storeVec4x_ok (by exact fun l => isVec_uninitVec _ _) h8 h10)
    (stepOk (POLVEC2BSX4_p _ _ _ h11 (fun l => by rw [hc l]; decide))
    (stepOk (BS2POLVECX4_p _ _ _ (fun l => Avx.isVV_uninitVV _ _ _) (fun l => by have := hpk l; omega)) ?_)))
  choose v0 hv0 hv0' using fun l : Fin 4 => Avx.clear_ok (Avx.length_uninitVecs (690 + l.val) 16)
  refine stepOk (clear4x_sim.eq hv0) ?_
  choose vp h13 h14 h15 using fun l : Fin 4 => Avx.inner_ok .saber (unpackVec 10 3 ((pk l).drop pkOff)) (Avx.redV (USpec.genSecret spec (S l))) (h2 l) (h3 l) (hv0' l)
  refine stepOk (fourA_ok h13) ?_
  choose vp' h16 h17 h18 using fun l : Fin 4 => Avx.addH1_ok (h14 l)
  refine stepOk (addH1_4x_sim.eq h16) (stepOk (unpackMsg4x_sim.eq fun l => BS2POLmsg_ok (m l) 0 _ (length_uninit _ _ _) (by have := hm l; omega)) ?_)
  choose mv h19 h20 h21 using fun l : Fin 4 => Avx.encodeMessage_ok (Avx.length_uninitVecs (710 + l.val) 16) (length_ofP (unpack 1 ((m l).drop 0)))
  choose w h22 h23 h24 using fun l : Fin 4 => Avx.truncEnc_ok .saber (h17 l) (h20 l)
  refine stepOk (encodeMessage4x_sim.eq h19) (stepOk (truncEnc4x_sim.eq h22) (stepOk (storeTemp4x_ok h11 h23) ?_))
  refine fourA_ok fun l => ?_
  have hlb : (packVec 10 (fun i => USpec.roundP 13 (matVec (USpec.genMatrix spec ((PK l).drop 960)) (USpec.genSecret spec (S l)) i))).length = 960 :=
    length_packVec _ _ _
  have h12' : packVec 10 (toV 3 (d l)) =
      packVec 10 (fun i => USpec.roundP 13 (matVec (USpec.genMatrix spec ((PK l).drop 960)) (USpec.genSecret spec (S l)) i)) := by
    refine (h12 l).trans ?_
    apply packVec_congr (by omega)
    intro i
    rw [if_pos rfl]
    have := Avx.roundP_congr (EqMod.refl 8192 (matVec (USpec.genMatrix spec ((PK l).drop 960)) (Avx.redV (USpec.genSecret spec (S l))) i))
    refine EqMod.trans (EqMod.symm this) (Avx.roundP_congr ?_)
    exact matVec_congr (m := 8192) (fun i j => EqMod.refl _ _) (fun j => Avx.redP_eqMod (by decide) _) i
  have eb : ∀ i, unpackVec 10 3 ((pk l).drop pkOff) i = unpackVec 10 3 (PK l) i := by
    intro i
    rw [← hPK l, unpackVec_take _ _ _ _ (by omega)]
  have em : pack 4 (Avx.vecP (w l)) = pack 4 (USpec.encodeMsg 13 4 (innerProd (unpackVec 10 3 (PK l)) (USpec.genSecret spec (S l))) (unpack 1 ((m l).take 32))) := by
    apply pack_congr (by decide)
    have e : Avx.vecP (w l) = fun k => ((Avx.vecP (vp l) k + 4) % 65536 - (512 * unpack 1 ((m l).take 32) k) % 65536) % 1024 / 2 ^ (10 - PSet.saber.ET) := by
      funext k
      have h1 := unpack_range 1 ((m l).drop 0) k
      rw [h24, h18, h21, toP_ofP, Int.emod_eq_of_lt h1.1 (by omega), ← unpack_take _ 32 _ (by omega), List.drop_zero]
    rw [e]
    apply Avx.encodeMsg_congr .saber
    refine EqMod.trans (h15 l) ?_
    exact innerProd_congr (m := 8192) (fun j => by have e := eb j; exact e ▸ EqMod.refl _ _) (fun j => Avx.redP_eqMod (by decide) _)
  have hd0 : (d l).length = 3 := (h11 l).1
  rw [rd_ok [] (by rw [List.length_set, hd0]; decide), ok_bind, getD_set, if_pos ⟨rfl, by rw [hd0]; decide⟩, SABER_pack_4bit,
    h12', POLT2BS_4_ok _ _ _ (by simp) (by rw [length_writeAt _ _ _ (by rw [hlb, hc l]; decide), hc l]), Avx.toP_rowOf, em]
  have := writeAt_concat (c l) _ (pack 4 (USpec.encodeMsg 13 4 (innerProd (unpackVec 10 3 (PK l)) (USpec.genSecret spec (S l))) (unpack 1 ((m l).take 32))))
    (show (c l).length = (packVec 10 (fun i => USpec.roundP 13 (matVec (USpec.genMatrix spec ((PK l).drop 960)) (USpec.genSecret spec (S l)) i))).length + _ by
      rw [hlb, length_pack, hc l])
  rw [hlb] at this
  rw [this]
  rfl

/-- Decryption. -/
theorem indcpa_kem_dec_ok {sk c m : Fam (List Byte)} (hsk : ∀ l, 1248 ≤ (sk l).length) (hc : ∀ l, 1088 ≤ (c l).length) (hm : ∀ l, 32 ≤ (m l).length) :
    indcpa_kem_dec sk c m = .ok fun l => writeAt (m l) 0 (USpec.pkeDec spec ((sk l).take 1248) ((c l).take 1088)) := by
  unfold indcpa_kem_dec
  simp only [show K = 3 from rfl]
  rw [BS2POLVECX4_q _ _ _ (fun l => Avx.isVV_uninitVV _ _ _) (fun l => by have := hsk l; omega), ok_bind,
    BS2POLVECX4_p _ _ _ (fun l => Avx.isVV_uninitVV _ _ _) (fun l => by have := hc l; omega), ok_bind]
  simp only [List.drop_zero]
  choose v0 hv0 hv0' using fun l : Fin 4 => Avx.clear_ok (Avx.length_uninitVecs (740 + l.val) 16)
  refine stepOk (clear4x_sim.eq hv0) ?_
  choose b' hb1 hb2 hb3 using fun l : Fin 4 => Avx.evalAll_ok .saber (Avx.isVV_vecsV .saber (ofV (unpackVec 13 3 (sk l)))) (Avx.isVV_uninitVV (750 + l.val) 3 64)
  refine stepOk (evalAll4x_sim.eq hb1) ?_
  choose v h13 h14 h15 using fun l : Fin 4 => Avx.inner_ok .saber (unpackVec 10 3 (c l)) (unpackVec 13 3 (sk l)) (hb2 l) (hb3 l) (hv0' l)
  refine stepOk (fourA_ok h13) (stepOk (storeRow4x_sim.eq fun l => Avx.storeRow_ok (length_uninit 16 (760 + l.val) 256) (h14 l))
    (stepOk (SABER_un_pack4bitX4_ok c _ _ (fun l => by simp [N]) (fun l => by have := hc l; rw [show PSet.saber.POLYVECCOMPRESSEDBYTES = 960 from rfl]; omega)) ?_))
  choose w hw hwl hwb hwm using fun l : Fin 4 => Avx.decRound_ok .saber (Avx.length_rowOf (v l)) (length_ofP (unpack 4 ((c l).drop 960)))
  refine stepOk (decRound4x_sim.eq hw) ?_
  refine fourA_ok fun l => ?_
  have hcl := hc l
  have hskl := hsk l
  rw [Avx.POL2MSG_ok (hwl l) (hwb l) (hm l)]
  unfold USpec.pkeDec
  refine congrArg (fun z => Except.ok (writeAt (m l) 0 z)) ?_
  apply pack_congr (by omega)
  have hcm : ∀ k, toP (ofP (unpack 4 ((c l).drop 960))) k = unpack 4 (((c l).take 1088).drop 960) k := by
    intro k
    have h1 := unpack_range 4 ((c l).drop 960) k
    rw [toP_ofP, Int.emod_eq_of_lt h1.1 (by omega), List.drop_take, unpack_take _ _ _ (by omega)]
  have : toP (w l) = fun k => (Avx.vecP (v l) k + Avx.h2 .saber - 2 ^ (10 - PSet.saber.ET) * unpack 4 (((c l).take 1088).drop 960) k) % 1024 / 512 := by
    funext k; rw [hwm, hcm, Avx.toP_rowOf]
  rw [this]
  apply Avx.decodeMsg_congr .saber
  refine EqMod.trans (EqMod.of_dvd (m := 8192) (by decide) (h15 l)) ?_
  rw [← unpackVec_take 10 3 1088 (c l) (by omega), ← unpackVec_take 13 3 1248 (sk l) (by omega)]
  exact EqMod.refl _ _

end Saber.X4
