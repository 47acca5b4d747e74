import Verif.Model.InPlaceKem
import Verif.Proof.Kem
/-!
# Proofs about `kem.c` with all arguments in one object
-/
namespace Saber.InPlace
open Spec

/-- First part of the ciphertext: `round(A s')` for the matrix of `seedA` and the secret of `S`. -/
def ctHead (P : PSet) (seedA S : List Byte) : List Byte := packVec 10 (fun i => roundP (matVec (genMatrix P.spec seedA) (genSecret P.spec S) i))

theorem length_ctHead (P : PSet) (seedA S : List Byte) : (ctHead P seedA S).length = P.L * 320 := length_packVec _ _ _

/-- The public key that `indcpa_kem_enc` sees: the seed is read before the first part of the ciphertext is written, the vector after that. -/
def seenPk (P : PSet) (mem : List Byte) (pkOff cOff : Nat) (S : List Byte) : List Byte :=
  ((writeAt mem cOff (ctHead P ((mem.drop (pkOff + P.L * 320)).take 32) S)).drop pkOff).take (P.L * 320) ++ (mem.drop (pkOff + P.L * 320)).take 32

theorem indcpa_enc_ok (P : PSet) (m : List Byte) (mOff : Nat) (seed : List Byte) (seedOff : Nat) (mem : List Byte) (pkOff cOff : Nat)
    (hm : mOff + 32 ≤ m.length) (hs : seedOff + 32 ≤ seed.length)
    (hpk : pkOff + P.INDCPA_PUBLICKEYBYTES ≤ mem.length) (hc : cOff + P.BYTES_CCA_DEC ≤ mem.length) :
    indcpa_kem_enc P m mOff seed seedOff mem pkOff cOff =
      .ok (writeAt mem cOff (pkeEnc P.spec ((m.drop mOff).take 32) ((seed.drop seedOff).take 32) (seenPk P mem pkOff cOff ((seed.drop seedOff).take 32)))) := by
  have hpl : P.INDCPA_PUBLICKEYBYTES = P.L * 320 + 32 := rfl
  have e1 : P.POLYVECCOMPRESSEDBYTES = P.L * 320 := rfl
  have hcl : P.BYTES_CCA_DEC = P.L * 320 + 32 * P.ET := by cases P <;> rfl
  unfold indcpa_kem_enc
  rw [GenMatrix_spec P _ (isMat_uninitMat _ _) _ _ (by omega), ok_bind, GenSecret_spec P _ (isVec_uninitVec _ _) _ _ (by omega), ok_bind, e1]
  generalize hS : (seed.drop seedOff).take 32 = S
  generalize hPK : seenPk P mem pkOff cOff S = PK
  unfold seenPk at hPK
  have lS : ((mem.drop (pkOff + P.L * 320)).take 32).length = 32 := by simp; omega
  generalize (mem.drop (pkOff + P.L * 320)).take 32 = seedA at *
  have lH := length_ctHead P seedA S
  obtain ⟨b, hb, hbv, hbm⟩ := MatrixVectorMul_ok P (ofM (genMatrix P.spec seedA)) (ofV (genSecret P.spec S)) (zeroVec P.L) 0
    (isMat_ofM _) (isVec_ofV _) (isVec_zeroVec _)
  rw [hb, ok_bind]
  obtain ⟨b', hb', hbv', hbm'⟩ := roundVec_ok P b hbv
  have ebp : packVec 10 (toV P.L b') = ctHead P seedA S := by
    apply packVec_congr (by omega)
    intro i
    have : (fun k => (toV P.L b i k + 4) / 8) = toV P.L b' i := by funext k; rw [hbm']
    rw [← this]
    apply roundP_congr
    refine EqMod.trans (hbm i) ?_
    simp only [toV_zeroVec, zero_add, show ¬ ((0 : Int) = 1) by decide, if_false]
    apply matVec_congr (m := 8192)
    · intro i j
      rw [toM_ofM]; exact toP_ofP_mod _ _ (by decide)
    · intro j
      rw [toV_ofV]; exact toP_ofP_mod _ _ (by decide)
  rw [hb', ok_bind, POLVECp2BS_ok P mem cOff _ hbv' (by omega), ok_bind, ebp]
  have lW : (writeAt mem cOff (ctHead P seedA S)).length = mem.length := length_writeAt _ _ _ (by omega)
  generalize hW : writeAt mem cOff (ctHead P seedA S) = W at *
  rw [BS2POLVECp_ok P W pkOff _ (isVec_uninitVec _ _) (by omega), ok_bind]
  obtain ⟨vp, hvp, hvl, hvm⟩ := InnerProd_ok P (ofV (unpackVec 10 P.L (W.drop pkOff))) (ofV (genSecret P.spec S)) (List.replicate N 0)
    (isVec_ofV _) (isVec_ofV _) (by simp)
  rw [hvp, ok_bind, BS2POLmsg_ok m mOff _ (length_uninit _ _ _) (by omega), ok_bind]
  obtain ⟨w, hw, hwl, hwm⟩ := encRound_ok P vp (ofP (unpack 1 (m.drop mOff))) hvl (by simp)
  have lP1 : ((W.drop pkOff).take (P.L * 320)).length = P.L * 320 := by simp; omega
  have eb : ∀ i, unpackVec 10 P.L (W.drop pkOff) i = unpackVec 10 P.L PK i := by
    intro i
    have h1 := unpackVec_take 10 P.L (P.L * 320) (W.drop pkOff) (by omega)
    have h2 := unpackVec_take 10 P.L (P.L * 320) PK (by omega)
    have h3 : PK.take (P.L * 320) = (W.drop pkOff).take (P.L * 320) := by
      rw [← hPK, List.take_append_of_le_length (by omega), List.take_of_length_le (by omega)]
    rw [← h1, ← h2, h3]
  have em : pack P.ET (toP w) = pack P.ET (encodeMsg P.ET (innerProd (unpackVec 10 P.L PK) (genSecret P.spec S)) (unpack 1 ((m.drop mOff).take 32))) := by
    apply pack_congr (by cases P <;> decide)
    have : toP w = fun k => ((toP vp k - 512 * toP (ofP (unpack 1 (m.drop mOff))) k + 4) / 2 ^ (10 - P.ET)) % 65536 := by
      funext k; rw [hwm]
    rw [this]
    apply encodeMsg_congr
    · refine EqMod.trans (EqMod.of_dvd (m := 8192) (by decide) hvm) ?_
      simp only [toP_zero, zero_add]
      apply innerProd_congr (m := 1024)
      · intro j
        rw [toV_ofV, ← eb]; exact toP_ofP_mod _ _ (by decide)
      · intro j
        rw [toV_ofV]; exact toP_ofP_mod _ _ (by decide)
    · intro k
      have h1 := unpack_range 1 (m.drop mOff) k
      rw [toP_ofP, Int.emod_eq_of_lt h1.1 (by omega)]
      rw [unpack_take _ _ _ (by omega)]
  have eP : PK.drop (P.L * 320) = seedA := by
    rw [← hPK, List.drop_append_of_le_length (by omega), List.drop_of_length_le (by omega), List.nil_append]
  have ec : pkeEnc P.spec ((m.drop mOff).take 32) S PK = ctHead P seedA S ++
      pack P.ET (encodeMsg P.ET (innerProd (unpackVec 10 P.L PK) (genSecret P.spec S)) (unpack 1 ((m.drop mOff).take 32))) := by
    rw [← eP]; rfl
  have lp : ∀ p, (pack P.ET p).length = 32 * P.ET := fun p => length_pack _ _
  rw [hw, ok_bind, POLT2BS_ok P _ _ _ hwl (by omega), em, ec, ← hW, writeAt_after _ _ _ _ _ (by omega) (by rw [lp]; omega)]

theorem crypto_kem_enc_ok {σ : Type} (P : PSet) (rb : RandomBytes σ) (st st1 : σ) (m0 : List Byte) (h1 : Delivers rb 32 st m0 st1)
    (mem : List Byte) (cOff kOff pkOff : Nat) (hc : cOff + P.BYTES_CCA_DEC ≤ mem.length) (hk : kOff + 32 ≤ mem.length)
    (hpk : pkOff + P.INDCPA_PUBLICKEYBYTES ≤ mem.length) (pk kr c : List Byte) (epk : pk = (mem.drop pkOff).take P.INDCPA_PUBLICKEYBYTES)
    (ekr : kr = kemKr (Keccak.sha3_256 m0) (Keccak.sha3_256 pk))
    (ec : c = pkeEnc P.spec (Keccak.sha3_256 m0) (kr.drop 32) (seenPk P mem pkOff cOff (kr.drop 32))) :
    crypto_kem_enc P rb mem cOff kOff pkOff st = .ok (0, writeAt (writeAt mem cOff c) kOff (kemKey (kr.take 32) c), st1) := by
  have k1 := PK_eq P
  have k3 := CT_eq P
  obtain ⟨hl, hr⟩ := h1
  unfold crypto_kem_enc
  dsimp only
  rw [hr _ _ (by simp), ok_bind]
  dsimp only
  have lw : (writeAt (uninit 8 61 64) 0 m0).length = 64 := by rw [length_writeAt _ _ _ (by simp; omega)]; simp
  change (Saber.sha3_256 (writeAt (uninit 8 61 64) 0 m0) 0 (writeAt (uninit 8 61 64) 0 m0) 0 32 >>= _) = _
  rw [sha3_256_ok _ _ _ _ _ (by omega) (by omega), ok_bind, List.drop_zero]
  have e1 : (writeAt (uninit 8 61 64) 0 m0).take 32 = m0 := by
    rw [writeAt_prefix, List.take_append_of_le_length (by omega), List.take_of_length_le (by omega)]
  rw [e1]
  have lm := length_sha3_256 m0
  have lp := length_sha3_256 pk
  rw [sha3_256_ok _ _ _ _ _ (by rw [length_writeAt _ _ _ (by omega)]; omega) (by omega), ok_bind, ← epk,
    writeAt_after _ _ _ _ _ (by omega) (by omega), writeAt_full _ _ (by rw [List.length_append]; omega)]
  have lb : (Keccak.sha3_256 m0 ++ Keccak.sha3_256 pk).length = 64 := by rw [List.length_append]; omega
  have lk : kr.length = 64 := by rw [ekr]; exact length_sha3_512 _
  have ekr' : Keccak.sha3_512 (Keccak.sha3_256 m0 ++ Keccak.sha3_256 pk) = kr := ekr.symm
  rw [sha3_512_ok _ _ _ _ _ (by simp) (by omega), ok_bind, List.drop_zero, List.take_of_length_le (by omega), ekr',
    writeAt_full _ _ (by simp; omega), indcpa_enc_ok P _ _ _ _ _ _ _ (by omega) (by omega) hpk hc, ok_bind, List.drop_zero,
    List.take_append_of_le_length (by omega), List.take_of_length_le (show (Keccak.sha3_256 m0).length ≤ 32 by omega),
    List.take_of_length_le (show (List.drop 32 kr).length ≤ 32 by rw [List.length_drop]; omega), ← ec]
  have lc : c.length = P.L * 320 + 32 * P.ET := by rw [ec]; exact length_pkeEnc _ _ _ _
  have lW : (writeAt mem cOff c).length = mem.length := length_writeAt _ _ _ (by omega)
  have er : ((writeAt mem cOff c).drop cOff).take P.BYTES_CCA_DEC = c := by
    rw [k3, ← lc]; exact writeAt_read _ _ _ (by omega)
  rw [sha3_256_ok _ _ _ _ _ (by omega) (by omega), ok_bind, er]
  have lh := length_sha3_256 c
  rw [sha3_256_ok _ _ _ _ _ (by omega) (by rw [length_writeAt _ _ _ (by omega)]; omega), ok_bind, List.drop_zero,
    List.take_of_length_le (show (writeAt _ _ _).length ≤ 64 by rw [length_writeAt _ _ _ (by omega)]; omega)]
  have e2 : writeAt kr 32 (Keccak.sha3_256 c) = kr.take 32 ++ Keccak.sha3_256 c := by
    unfold writeAt
    rw [List.drop_of_length_le (by omega), List.append_nil]
  rw [e2]
  rfl

theorem crypto_kem_dec_ok (P : PSet) (mem : List Byte) (kOff cOff skOff : Nat) (hk : kOff + 32 ≤ mem.length)
    (hc : cOff + P.BYTES_CCA_DEC ≤ mem.length) (hsk : skOff + P.SECRETKEYBYTES ≤ mem.length) (sk c : List Byte)
    (esk : sk = (mem.drop skOff).take P.SECRETKEYBYTES) (ec : c = (mem.drop cOff).take P.BYTES_CCA_DEC) :
    crypto_kem_dec P mem kOff cOff skOff = .ok (0, writeAt mem kOff (decaps P.spec sk c)) := by
  have k1 := PK_eq P
  have k2 := SK_eq P
  have k3 := CT_eq P
  have k4 := KSK_eq P
  have sub : ∀ o n, o + n ≤ P.SECRETKEYBYTES → (mem.drop (skOff + o)).take n = (sk.drop o).take n := fun o n h => by
    rw [esk, List.drop_take, List.drop_drop, List.take_take, min_eq_left (by omega)]
  have lsk : sk.length = P.SECRETKEYBYTES := by rw [esk]; simp; omega
  have lcc : c.length = P.BYTES_CCA_DEC := by rw [ec]; simp; omega
  have s0 : (mem.drop skOff).take P.INDCPA_SECRETKEYBYTES = sk.take P.INDCPA_SECRETKEYBYTES := sub 0 _ (by omega)
  unfold crypto_kem_dec
  dsimp only
  rw [indcpa_dec_ok P _ _ _ (by rw [List.length_drop]; omega) (by rw [List.length_drop]; omega) (by simp), ok_bind, ← ec, s0]
  have eM : pkeDec P.spec (sk.take P.INDCPA_SECRETKEYBYTES) c = decapsM P.spec sk c := rfl
  rw [eM]
  have lM : (decapsM P.spec sk c).length = 32 := length_pkeDec _ _ _
  have hl := memcpy_ok (writeAt (uninit 8 63 64) 0 (decapsM P.spec sk c)) 32 mem (skOff + (P.SECRETKEYBYTES - 64)) 32 (by omega)
    (by rw [length_writeAt _ _ _ (by simp; omega)]; simp)
  unfold memcpy at hl
  rw [hl, ok_bind, sub _ _ (by omega)]
  have eH : (sk.drop (P.SECRETKEYBYTES - 64)).take 32 = skHpk P.spec sk := by
    have : P.SECRETKEYBYTES - 64 = P.L * 416 + (P.L * 320 + 32) := by omega
    rw [this]; rfl
  rw [eH]
  have lH : (skHpk P.spec sk).length = 32 := by rw [← eH]; simp; omega
  rw [writeAt_after _ _ _ _ _ (by omega) (by simp; omega), writeAt_full _ _ (by simp; omega)]
  rw [sha3_512_ok _ _ _ _ _ (by simp) (by simp; omega), ok_bind, List.drop_zero, List.take_of_length_le (by simp; omega)]
  have eK : Keccak.sha3_512 (decapsM P.spec sk c ++ skHpk P.spec sk) = decapsKr P.spec sk c := rfl
  rw [eK]
  have lk : (decapsKr P.spec sk c).length = 64 := length_sha3_512 _
  rw [writeAt_full _ _ (by simp; omega), Saber.indcpa_enc_ok P _ _ _ _ _ _ _ (by simp; omega) (by omega) (by omega) (by simp), ok_bind, List.drop_zero,
    List.take_append_of_le_length (by omega), List.take_of_length_le (show (decapsM P.spec sk c).length ≤ 32 by omega),
    List.take_of_length_le (show (List.drop 32 _).length ≤ 32 by rw [List.length_drop]; omega), sub _ _ (by omega)]
  have ec' : pkeEnc P.spec (decapsM P.spec sk c) ((decapsKr P.spec sk c).drop 32) ((sk.drop P.INDCPA_SECRETKEYBYTES).take P.INDCPA_PUBLICKEYBYTES) = reEncrypt P.spec sk c := rfl
  rw [ec']
  have lc : (reEncrypt P.spec sk c).length = P.L * 320 + 32 * P.ET := length_pkeEnc _ _ _ _
  rw [verify_ok _ _ _ _ _ (by omega) (by omega), ok_bind, List.drop_zero, ← ec,
    List.take_of_length_le (show (reEncrypt P.spec sk c).length ≤ P.BYTES_CCA_DEC by omega),
    sha3_256_ok _ _ _ _ _ (by omega) (by omega), ok_bind, ← ec]
  have lh := length_sha3_256 c
  have e2 : writeAt (decapsKr P.spec sk c) 32 (Keccak.sha3_256 c) = (decapsKr P.spec sk c).take 32 ++ Keccak.sha3_256 c := by
    unfold writeAt
    rw [List.drop_of_length_le (by omega), List.append_nil]
  have eZ : (sk.drop (P.SECRETKEYBYTES - KEYBYTES)).take KEYBYTES = skZ P.spec sk := by
    have : P.SECRETKEYBYTES - KEYBYTES = P.L * 416 + (P.L * 320 + 32) + 32 := by simp only [KEYBYTES]; omega
    rw [this]; rfl
  have lZ : (skZ P.spec sk).length = 32 := by rw [← eZ]; simp [KEYBYTES]; omega
  rw [e2]
  unfold decaps
  by_cases hq : c = reEncrypt P.spec sk c
  · rw [if_pos hq, if_pos hq]
    have : BitVec.ofInt 8 0 = 0 := rfl
    rw [this, cmov_zero_ok _ _ _ _ _ (by simp [KEYBYTES]; omega) (by simp only [KEYBYTES]; omega), ok_bind, sha3_256_ok _ _ _ _ _ (by omega) (by simp; omega), ok_bind,
      List.drop_zero, List.take_of_length_le (by simp; omega)]
    rfl
  · rw [if_neg hq, if_neg hq]
    have : BitVec.ofInt 8 1 = 1 := rfl
    rw [this, cmov_one_ok _ _ _ _ _ (by simp [KEYBYTES]; omega) (by simp only [KEYBYTES]; omega), ok_bind, sub _ _ (by simp only [KEYBYTES]; omega), eZ,
      sha3_256_ok _ _ _ _ _ (by omega)
      (by rw [length_writeAt _ _ _ (by simp; omega)]; simp; omega), ok_bind,
      List.drop_zero, List.take_of_length_le (by rw [length_writeAt _ _ _ (by simp; omega)]; simp; omega)]
    have e3 : writeAt ((decapsKr P.spec sk c).take 32 ++ Keccak.sha3_256 c) 0 (skZ P.spec sk) = skZ P.spec sk ++ Keccak.sha3_256 c := by
      rw [writeAt_prefix, List.drop_append_of_le_length (by simp; omega), List.drop_of_length_le (by simp; omega), List.nil_append]
    rw [e3]
    rfl

theorem getElem?_writeAt {α : Type} (a : List α) (off : Nat) (vs : List α) (h : off + vs.length ≤ a.length) (i : Nat) :
    (writeAt a off vs)[i]? = if off ≤ i ∧ i < off + vs.length then vs[i - off]? else a[i]? := by
  unfold writeAt
  have hl : (a.take off).length = off := by simp; omega
  by_cases h1 : i < off
  · rw [if_neg (by omega), List.append_assoc, List.getElem?_append_left (by omega), List.getElem?_take, if_pos h1]
  · by_cases h2 : i < off + vs.length
    · rw [if_pos (by omega), List.getElem?_append_left (by simp; omega), List.getElem?_append_right (by omega), hl]
    · rw [if_neg (by omega), List.getElem?_append_right (by simp; omega), List.getElem?_drop, List.length_append, hl]
      congr 1; omega

/-- A read does not see a write to another place. -/
theorem slice_disj {α : Type} (a : List α) (off : Nat) (vs : List α) (h : off + vs.length ≤ a.length) (o n : Nat)
    (hd : off + vs.length ≤ o ∨ o + n ≤ off) : ((writeAt a off vs).drop o).take n = (a.drop o).take n := by
  apply List.ext_getElem?
  intro i
  rw [List.getElem?_take, List.getElem?_take, List.getElem?_drop, List.getElem?_drop]
  split
  · rw [getElem?_writeAt _ _ _ h, if_neg (by omega)]
  · rfl

/-- Writes to different places commute. -/
theorem writeAt_comm {α : Type} (a : List α) (o1 o2 : Nat) (u v : List α) (h1 : o1 + u.length ≤ a.length) (h2 : o2 + v.length ≤ a.length)
    (hd : o1 + u.length ≤ o2 ∨ o2 + v.length ≤ o1) : writeAt (writeAt a o1 u) o2 v = writeAt (writeAt a o2 v) o1 u := by
  apply List.ext_getElem?
  intro i
  rw [getElem?_writeAt _ _ _ (by rw [length_writeAt _ _ _ h1]; exact h2), getElem?_writeAt _ _ _ h1,
    getElem?_writeAt _ _ _ (by rw [length_writeAt _ _ _ h2]; exact h1), getElem?_writeAt _ _ _ h2]
  split_ifs <;> first | rfl | omega

/-- The copy of the public key within one object: source and target are the same place or disjoint. -/
theorem copy_ok (mem : List Byte) (s d n : Nat) (hs : s + n ≤ mem.length) (hd : d + n ≤ mem.length) (h : s = d ∨ s + n ≤ d ∨ d + n ≤ s) :
    (loop n mem fun i mem => do
      let v ← rd mem (s + i)
      wr mem (d + i) v) = .ok (writeAt mem d ((mem.drop s).take n)) := by
  induction n with
  | zero => simp
  | succ n ih =>
    have ls : ((mem.drop s).take n).length = n := by simp; omega
    have lw : (writeAt mem d ((mem.drop s).take n)).length = mem.length := length_writeAt _ _ _ (by omega)
    have e : (writeAt mem d ((mem.drop s).take n)).getD (s + n) 0 = mem.getD (s + n) 0 := by
      rw [List.getD_eq_getElem?_getD, List.getD_eq_getElem?_getD, getElem?_writeAt _ _ _ (by omega), if_neg (by omega)]
    rw [loop_succ, ih (by omega) (by omega) (by omega), ok_bind, rd_ok 0 (by omega), ok_bind, wr_ok (by omega), set_eq_writeAt _ _ _ (by omega), e,
      writeAt_after _ _ _ _ _ (by omega) (by simp; omega), List.take_add_one]
    congr 3
    rw [List.getElem?_drop, List.getD_eq_getElem?_getD, List.getElem?_eq_getElem (by omega)]
    rfl

theorem indcpa_keypair_ok {σ : Type} (P : PSet) (rb : RandomBytes σ) (st st1 st2 : σ) (r1 r2 : List Byte)
    (h1 : Delivers rb 32 st r1 st1) (h2 : Delivers rb 32 st1 r2 st2) (mem : List Byte) (pkOff skOff : Nat)
    (hpk : pkOff + P.INDCPA_PUBLICKEYBYTES ≤ mem.length) (hsk : skOff + P.INDCPA_SECRETKEYBYTES ≤ mem.length) :
    indcpa_kem_keypair P rb mem pkOff skOff st =
      .ok (writeAt (writeAt mem skOff (pkeKeyGenSk P.spec r2)) pkOff (pkeKeyGenPk P.spec (Keccak.shake128 r1 32) r2), st2) := by
  have hpl : P.INDCPA_PUBLICKEYBYTES = P.L * 320 + 32 := rfl
  have hkl : P.INDCPA_SECRETKEYBYTES = P.L * 416 := rfl
  obtain ⟨hl1, hr1⟩ := h1
  obtain ⟨hl2, hr2⟩ := h2
  unfold indcpa_kem_keypair
  rw [hr1 _ _ (by simp), ok_bind]
  dsimp only
  rw [writeAt_full _ _ (by simp [hl1])]
  change (Saber.shake128 r1 0 SEEDBYTES r1 0 SEEDBYTES >>= _) = _
  rw [shake128_ok _ _ _ _ _ _ (by simp [hl1]) (by simp [hl1]), ok_bind, List.drop_zero, List.take_of_length_le (by simp [hl1]),
    writeAt_full _ _ (by simp [hl1, length_shake128]), hr2 _ _ (by simp), ok_bind]
  dsimp only
  rw [writeAt_full _ _ (by simp [hl2])]
  have hlA := length_shake128 r1 32
  generalize Keccak.shake128 r1 32 = seedA at *
  rw [GenMatrix_spec P _ (isMat_uninitMat _ _) _ _ (by omega), ok_bind, GenSecret_spec P _ (isVec_uninitVec _ _) _ _ (by omega), ok_bind,
    List.drop_zero, List.drop_zero, List.take_of_length_le (show seedA.length ≤ 32 by omega), List.take_of_length_le (show r2.length ≤ 32 by omega)]
  obtain ⟨b, hb, hbv, hbm⟩ := MatrixVectorMul_ok P (ofM (genMatrix P.spec seedA)) (ofV (genSecret P.spec r2)) (zeroVec P.L) 1
    (isMat_ofM _) (isVec_ofV _) (isVec_zeroVec _)
  rw [hb, ok_bind]
  obtain ⟨b', hb', hbv', hbm'⟩ := roundVec_ok P b hbv
  have epk : packVec 10 (toV P.L b') = packVec 10 (pubVec P.spec seedA r2) := by
    apply packVec_congr (by omega)
    intro i
    have : (fun k => (toV P.L b i k + 4) / 8) = toV P.L b' i := by funext k; rw [hbm']
    rw [← this]
    apply roundP_congr
    refine EqMod.trans (hbm i) ?_
    simp only [toV_zeroVec, zero_add, if_true]
    apply matVec_congr (m := 8192)
    · intro i j
      unfold transpose
      rw [toM_ofM]; exact toP_ofP_mod _ _ (by decide)
    · intro j
      rw [toV_ofV]; exact toP_ofP_mod _ _ (by decide)
  have esk : packVec 13 (toV P.L (ofV (genSecret P.spec r2))) = pkeKeyGenSk P.spec r2 := by
    apply packVec_congr (by omega)
    intro i
    rw [toV_ofV]; exact toP_ofP_mod _ _ (by decide)
  have hls : (pkeKeyGenSk P.spec r2).length = P.L * 416 := length_pkeKeyGenSk _ _
  have hlp : (packVec 10 (pubVec P.spec seedA r2)).length = P.L * 320 := length_packVec _ _ _
  have e1 : P.POLYVECCOMPRESSEDBYTES = P.L * 320 := rfl
  have e2 : SEEDBYTES = 32 := rfl
  rw [hb', ok_bind, POLVECq2BS_ok P mem skOff _ (isVec_ofV _) (by omega), ok_bind, esk]
  have lW : (writeAt mem skOff (pkeKeyGenSk P.spec r2)).length = mem.length := length_writeAt _ _ _ (by omega)
  rw [POLVECp2BS_ok P _ pkOff _ hbv' (by omega), ok_bind, epk,
    memcpy_ok _ _ _ _ _ (by omega) (by rw [length_writeAt _ _ _ (by omega)]; omega), ok_bind, List.drop_zero,
    List.take_of_length_le (by omega), e1, writeAt_after _ _ _ _ _ (by omega) (by omega)]
  rfl

/-- The result if the public key and the secret key do not overlap, or the public key is put where the secret key contains it. -/
theorem crypto_kem_keypair_ok {σ : Type} (P : PSet) (rb : RandomBytes σ) (st st1 st2 st3 : σ) (r1 r2 z : List Byte)
    (h1 : Delivers rb 32 st r1 st1) (h2 : Delivers rb 32 st1 r2 st2) (h3 : Delivers rb 32 st2 z st3) (mem : List Byte) (pkOff skOff : Nat)
    (hpk : pkOff + P.INDCPA_PUBLICKEYBYTES ≤ mem.length) (hsk : skOff + P.SECRETKEYBYTES ≤ mem.length)
    (hd : pkOff = skOff + P.INDCPA_SECRETKEYBYTES ∨ pkOff + P.INDCPA_PUBLICKEYBYTES ≤ skOff ∨ skOff + P.SECRETKEYBYTES ≤ pkOff) :
    crypto_kem_keypair P rb mem pkOff skOff st = .ok (0, writeAt (writeAt mem pkOff (kemPk P.spec r1 r2)) skOff (kemSk P.spec r1 r2 z), st3) := by
  have k1 := PK_eq P
  have k2 := SK_eq P
  have k3 := KSK_eq P
  unfold crypto_kem_keypair
  rw [indcpa_keypair_ok P rb st st1 st2 r1 r2 h1 h2 mem pkOff skOff hpk (by omega), ok_bind]
  dsimp only
  obtain ⟨hl3, hr3⟩ := h3
  have e0 : pkeKeyGenPk P.spec (Keccak.shake128 r1 32) r2 = kemPk P.spec r1 r2 := rfl
  rw [e0]
  have l1 : (kemPk P.spec r1 r2).length = P.L * 320 + 32 := length_kemPk _ _ _
  have l2 : (pkeKeyGenSk P.spec r2).length = P.L * 416 := length_pkeKeyGenSk _ _
  have l4 := length_sha3_256 (kemPk P.spec r1 r2)
  have eSK : kemSk P.spec r1 r2 z = pkeKeyGenSk P.spec r2 ++ kemPk P.spec r1 r2 ++ Keccak.sha3_256 (kemPk P.spec r1 r2) ++ z := rfl
  rw [eSK]
  generalize kemPk P.spec r1 r2 = PK at *
  generalize pkeKeyGenSk P.spec r2 = S at *
  have c1 : writeAt (writeAt mem skOff S) pkOff PK = writeAt (writeAt mem pkOff PK) skOff S := writeAt_comm _ _ _ _ _ (by omega) (by omega) (by omega)
  rw [c1]
  have lW : (writeAt mem pkOff PK).length = mem.length := length_writeAt _ _ _ (by omega)
  have rW : ((writeAt mem pkOff PK).drop pkOff).take P.INDCPA_PUBLICKEYBYTES = PK := by
    rw [k1, ← l1]; exact writeAt_read _ _ _ (by omega)
  generalize hW : writeAt mem pkOff PK = W at *
  have lWS : (writeAt W skOff S).length = mem.length := by rw [length_writeAt _ _ _ (by omega), lW]
  rw [copy_ok _ _ _ _ (by omega) (by omega) (by omega), ok_bind, slice_disj _ _ _ (by omega) _ _ (by omega), rW, writeAt_after _ _ _ _ _ (by omega) (by omega)]
  have l5 : (S ++ PK).length = P.L * 416 + (P.L * 320 + 32) := by rw [List.length_append]; omega
  have lWSP : (writeAt W skOff (S ++ PK)).length = mem.length := by rw [length_writeAt _ _ _ (by omega), lW]
  have r2' : ((writeAt W skOff (S ++ PK)).drop pkOff).take P.INDCPA_PUBLICKEYBYTES = PK := by
    rcases hd with hd | hd
    · rw [← writeAt_after W skOff (skOff + P.INDCPA_SECRETKEYBYTES) S PK (by omega) (by omega), hd, k1, ← l1]
      exact writeAt_read _ _ _ (by omega)
    · rw [slice_disj _ _ _ (by omega) _ _ (by omega), rW]
  change (Saber.sha3_256 _ _ _ _ _ >>= _) = _
  rw [sha3_256_ok _ _ _ _ _ (by omega) (by omega), ok_bind, r2', writeAt_after _ _ _ _ _ (by omega) (by omega)]
  have l6 : (S ++ PK ++ Keccak.sha3_256 PK).length = P.L * 416 + (P.L * 320 + 32) + 32 := by rw [List.length_append]; omega
  rw [hr3 _ _ (by rw [length_writeAt _ _ _ (by omega)]; simp only [KEYBYTES]; omega), ok_bind]
  dsimp only
  rw [writeAt_after _ _ _ _ _ (by simp only [KEYBYTES]; omega) (by omega)]
  rfl

theorem writeAt_inside {α : Type} (a : List α) (off d : Nat) (u v : List α) (h1 : off + u.length ≤ a.length) (h2 : d + v.length ≤ u.length) :
    writeAt (writeAt a off u) (off + d) v = writeAt a off (writeAt u d v) := by
  have l := length_writeAt u d v h2
  apply List.ext_getElem?
  intro i
  rw [getElem?_writeAt _ _ _ (by rw [length_writeAt _ _ _ h1]; omega), getElem?_writeAt _ _ _ h1, getElem?_writeAt _ _ _ (by omega), l]
  by_cases h : off ≤ i ∧ i < off + u.length
  · rw [if_pos h, if_pos h, getElem?_writeAt _ _ _ h2]
    by_cases h' : off + d ≤ i ∧ i < off + d + v.length
    · rw [if_pos h', if_pos (by omega)]; congr 1; omega
    · rw [if_neg h', if_neg (by omega)]
  · rw [if_neg h, if_neg h, if_neg (by omega)]

/-- The result if the public key is put inside of the place of the secret vector. -/
theorem crypto_kem_keypair_inside {σ : Type} (P : PSet) (rb : RandomBytes σ) (st st1 st2 st3 : σ) (r1 r2 z : List Byte)
    (h1 : Delivers rb 32 st r1 st1) (h2 : Delivers rb 32 st1 r2 st2) (h3 : Delivers rb 32 st2 z st3) (mem : List Byte) (d skOff : Nat)
    (hsk : skOff + P.SECRETKEYBYTES ≤ mem.length) (hd : d + P.INDCPA_PUBLICKEYBYTES ≤ P.INDCPA_SECRETKEYBYTES) :
    crypto_kem_keypair P rb mem (skOff + d) skOff st = .ok (0, writeAt mem skOff
      (writeAt (pkeKeyGenSk P.spec r2) d (kemPk P.spec r1 r2) ++ kemPk P.spec r1 r2 ++ Keccak.sha3_256 (kemPk P.spec r1 r2) ++ z), st3) := by
  have k1 := PK_eq P
  have k2 := SK_eq P
  have k3 := KSK_eq P
  unfold crypto_kem_keypair
  rw [indcpa_keypair_ok P rb st st1 st2 r1 r2 h1 h2 mem (skOff + d) skOff (by omega) (by omega), ok_bind]
  dsimp only
  obtain ⟨hl3, hr3⟩ := h3
  have e0 : pkeKeyGenPk P.spec (Keccak.shake128 r1 32) r2 = kemPk P.spec r1 r2 := rfl
  rw [e0]
  have l1 : (kemPk P.spec r1 r2).length = P.L * 320 + 32 := length_kemPk _ _ _
  have l2 : (pkeKeyGenSk P.spec r2).length = P.L * 416 := length_pkeKeyGenSk _ _
  have l4 := length_sha3_256 (kemPk P.spec r1 r2)
  generalize kemPk P.spec r1 r2 = PK at *
  generalize pkeKeyGenSk P.spec r2 = S at *
  rw [writeAt_inside _ _ _ _ _ (by omega) (by omega)]
  have lT : (writeAt S d PK).length = P.L * 416 := by rw [length_writeAt _ _ _ (by omega), l2]
  have rT : ((writeAt S d PK).drop d).take P.INDCPA_PUBLICKEYBYTES = PK := by
    rw [k1, ← l1]; exact writeAt_read _ _ _ (by omega)
  generalize writeAt S d PK = T at *
  have rd' : ∀ v : List Byte, skOff + (T ++ v).length ≤ mem.length → ((writeAt mem skOff (T ++ v)).drop (skOff + d)).take P.INDCPA_PUBLICKEYBYTES = PK := fun v hv => by
    have h := writeAt_read mem (T ++ v) skOff (by omega)
    have : ((writeAt mem skOff (T ++ v)).drop (skOff + d)).take P.INDCPA_PUBLICKEYBYTES = ((T ++ v).drop d).take P.INDCPA_PUBLICKEYBYTES := by
      conv_rhs => rw [← h]
      rw [List.drop_take, List.drop_drop, List.take_take, min_eq_left (by rw [List.length_append]; omega)]
    rw [this, List.drop_append_of_le_length (by omega), List.take_append_of_le_length (by rw [List.length_drop]; omega), rT]
  have lW : (writeAt mem skOff T).length = mem.length := length_writeAt _ _ _ (by omega)
  have r0 := rd' [] (by rw [List.append_nil]; omega)
  rw [List.append_nil] at r0
  rw [copy_ok _ _ _ _ (by omega) (by omega) (by omega), ok_bind, r0, writeAt_after _ _ _ _ _ (by omega) (by omega)]
  have l5 : (T ++ PK).length = P.L * 416 + (P.L * 320 + 32) := by rw [List.length_append]; omega
  have lWSP : (writeAt mem skOff (T ++ PK)).length = mem.length := length_writeAt _ _ _ (by omega)
  change (Saber.sha3_256 _ _ _ _ _ >>= _) = _
  rw [sha3_256_ok _ _ _ _ _ (by omega) (by omega), ok_bind, rd' PK (by omega), writeAt_after _ _ _ _ _ (by omega) (by omega)]
  have l6 : (T ++ PK ++ Keccak.sha3_256 PK).length = P.L * 416 + (P.L * 320 + 32) + 32 := by rw [List.length_append]; omega
  rw [hr3 _ _ (by rw [length_writeAt _ _ _ (by omega)]; simp only [KEYBYTES]; omega), ok_bind]
  dsimp only
  rw [writeAt_after _ _ _ _ _ (by simp only [KEYBYTES]; omega) (by omega)]
  rfl

/-- The loop that copies byte by byte upwards, for any overlap.  If the target begins inside of the source, `d - s` bytes after its start, the first `d - s` bytes are
repeated. -/
theorem copy_any (mem : List Byte) (s d n : Nat) (hs : s + n ≤ mem.length) (hd : d + n ≤ mem.length) :
    (loop n mem fun i mem => do
      let v ← rd mem (s + i)
      wr mem (d + i) v) = .ok (writeAt mem d ((List.range n).map fun i => mem.getD (s + i % (d - s)) 0)) := by
  induction n with
  | zero => simp
  | succ n ih =>
    have ls : ((List.range n).map fun i => mem.getD (s + i % (d - s)) 0).length = n := by simp
    have lw : (writeAt mem d ((List.range n).map fun i => mem.getD (s + i % (d - s)) 0)).length = mem.length := length_writeAt _ _ _ (by omega)
    have e : (writeAt mem d ((List.range n).map fun i => mem.getD (s + i % (d - s)) 0)).getD (s + n) 0 = mem.getD (s + n % (d - s)) 0 := by
      rw [List.getD_eq_getElem?_getD, getElem?_writeAt _ _ _ (by omega), ls]
      by_cases h : d ≤ s + n ∧ s + n < d + n
      · have hm : n % (d - s) = (s + n - d) % (d - s) := by
          rw [Nat.mod_eq_sub_mod (show d - s ≤ n by omega)]; congr 1; omega
        rw [if_pos h, List.getElem?_map, List.getElem?_range (by omega), hm]; rfl
      · have hm : n % (d - s) = n := by
          rcases Nat.lt_or_ge s d with h' | h'
          · exact Nat.mod_eq_of_lt (by omega)
          · rw [Nat.sub_eq_zero_of_le h', Nat.mod_zero]
        rw [if_neg h, hm, List.getD_eq_getElem?_getD]
    rw [loop_succ, ih (by omega) (by omega), ok_bind, rd_ok 0 (by omega), ok_bind, wr_ok (by omega), set_eq_writeAt _ _ _ (by omega), e,
      writeAt_after _ _ _ _ _ (by omega) (by simp; omega), List.range_succ, List.map_append]
    rfl

/-- The result of key generation for any overlap of the two keys -/
theorem crypto_kem_keypair_any {σ : Type} (P : PSet) (rb : RandomBytes σ) (st st1 st2 st3 : σ) (r1 r2 z : List Byte)
    (h1 : Delivers rb 32 st r1 st1) (h2 : Delivers rb 32 st1 r2 st2) (h3 : Delivers rb 32 st2 z st3) (mem : List Byte) (pkOff skOff : Nat)
    (hpk : pkOff + P.INDCPA_PUBLICKEYBYTES ≤ mem.length) (hsk : skOff + P.SECRETKEYBYTES ≤ mem.length) (mem2 mem3 : List Byte)
    (e2 : mem2 = writeAt (writeAt mem skOff (pkeKeyGenSk P.spec r2)) pkOff (kemPk P.spec r1 r2))
    (e3 : mem3 = writeAt mem2 (skOff + P.INDCPA_SECRETKEYBYTES)
      ((List.range P.INDCPA_PUBLICKEYBYTES).map fun i => (kemPk P.spec r1 r2).getD (i % (skOff + P.INDCPA_SECRETKEYBYTES - pkOff)) 0)) :
    crypto_kem_keypair P rb mem pkOff skOff st = .ok (0, writeAt (writeAt mem3 (skOff + (P.SECRETKEYBYTES - 64))
      (Keccak.sha3_256 ((mem3.drop pkOff).take P.INDCPA_PUBLICKEYBYTES))) (skOff + (P.SECRETKEYBYTES - 32)) z, st3) := by
  have k1 := PK_eq P
  have k2 := SK_eq P
  have k3 := KSK_eq P
  have l1 : (kemPk P.spec r1 r2).length = P.INDCPA_PUBLICKEYBYTES := length_kemPk _ _ _
  have l2 : (pkeKeyGenSk P.spec r2).length = P.INDCPA_SECRETKEYBYTES := length_pkeKeyGenSk _ _
  have lA : (writeAt mem skOff (pkeKeyGenSk P.spec r2)).length = mem.length := length_writeAt _ _ _ (by omega)
  have lm2 : mem2.length = mem.length := by rw [e2, length_writeAt _ _ _ (by omega), lA]
  have lm3 : mem3.length = mem.length := by rw [e3, length_writeAt _ _ _ (by rw [List.length_map, List.length_range]; omega), lm2]
  unfold crypto_kem_keypair
  rw [indcpa_keypair_ok P rb st st1 st2 r1 r2 h1 h2 mem pkOff skOff hpk (by omega), ok_bind]
  dsimp only
  obtain ⟨hl3, hr3⟩ := h3
  have e0 : writeAt (writeAt mem skOff (pkeKeyGenSk P.spec r2)) pkOff (pkeKeyGenPk P.spec (Keccak.shake128 r1 32) r2) = mem2 := e2.symm
  have ec : ((List.range P.INDCPA_PUBLICKEYBYTES).map fun i => mem2.getD (pkOff + i % (skOff + P.INDCPA_SECRETKEYBYTES - pkOff)) 0) =
      (List.range P.INDCPA_PUBLICKEYBYTES).map fun i => (kemPk P.spec r1 r2).getD (i % (skOff + P.INDCPA_SECRETKEYBYTES - pkOff)) 0 := by
    apply List.map_congr_left
    intro i hi
    have hi' := List.mem_range.1 hi
    have := Nat.mod_le i (skOff + P.INDCPA_SECRETKEYBYTES - pkOff)
    rw [e2, List.getD_eq_getElem?_getD, getElem?_writeAt _ _ _ (by omega), if_pos (by omega), List.getD_eq_getElem?_getD]
    congr 2; omega
  rw [e0, copy_any _ _ _ _ (by omega) (by omega), ok_bind, ec, ← e3]
  change (Saber.sha3_256 _ _ _ _ _ >>= _) = _
  have l4 := length_sha3_256 ((mem3.drop pkOff).take P.INDCPA_PUBLICKEYBYTES)
  rw [sha3_256_ok _ _ _ _ _ (by omega) (by omega), ok_bind, hr3 _ _ (by rw [length_writeAt _ _ _ (by omega)]; simp only [KEYBYTES]; omega), ok_bind]
  rfl

end Saber.InPlace
