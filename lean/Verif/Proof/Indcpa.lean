import Verif.Model.Indcpa
import Verif.Proof.Poly
/-!
# Proofs about `SABER_indcpa.c`
-/
namespace Saber
open Spec

/-! ### Packing depends only on the low bits -/

theorem intBit_mod (x : Int) (k j : Nat) (h : j < k) : intBit (x % 2 ^ k) j = intBit x j := by
  unfold intBit
  congr 1
  have e : x = x % 2 ^ k + (2 ^ (k - 1 - j) * (2 * (x / 2 ^ k))) * 2 ^ j := by
    have h2 : (2 : Int) ^ k = 2 ^ (k - 1 - j) * 2 * 2 ^ j := by
      rw [mul_assoc, mul_comm 2, ← pow_succ, ← pow_add]; congr 1; omega
    have := Int.emod_add_mul_ediv x (2 ^ k)
    calc x = x % 2 ^ k + 2 ^ k * (x / 2 ^ k) := this.symm
      _ = x % 2 ^ k + (2 ^ (k - 1 - j) * 2 * 2 ^ j) * (x / 2 ^ k) := by rw [← h2]
      _ = _ := by ring
  conv_rhs => rw [e, Int.add_mul_ediv_right _ _ (by positivity)]
  rw [show (2 : Int) ^ (k - 1 - j) * (2 * (x / 2 ^ k)) = 2 * (2 ^ (k - 1 - j) * (x / 2 ^ k)) by ring,
    Int.add_mul_emod_self_left]

theorem pack_congr {k : Nat} (hk : 0 < k) {p p' : Poly} (h : EqMod (2 ^ k) p p') : pack k p = pack k p' := by
  unfold pack
  apply List.map_congr_left
  intro m _
  congr 2
  funext j
  unfold streamBit
  rw [← intBit_mod _ k _ (Nat.mod_lt _ hk), h, intBit_mod _ k _ (Nat.mod_lt _ hk)]

theorem packVec_congr {k L : Nat} (hk : 0 < k) {p p' : Fin L → Poly} (h : ∀ i, EqMod (2 ^ k) (p i) (p' i)) :
    packVec k p = packVec k p' := by
  unfold packVec
  rw [List.flatMap_def, List.flatMap_def]
  congr 1
  apply List.map_congr_left
  intro i _
  exact pack_congr hk (h i)

/-! ### Rounding loops -/

theorem toP_nonneg (r : List (BitVec 16)) (k : Fin 256) : 0 ≤ toP r k ∧ toP r k < 65536 := by
  unfold toP
  have := (r.getD k.val 0).isLt
  omega

theorem u16_small {x : Int} (h0 : 0 ≤ x) (h1 : x < 65536) : ((u16 x).toNat : Int) = x := by
  unfold u16
  rw [BitVec.toNat_ofInt]
  show (((x % 65536).toNat : Nat) : Int) = x
  omega

theorem u16_mod (x : Int) : ((u16 x).toNat : Int) = x % 65536 := by
  unfold u16
  rw [BitVec.toNat_ofInt]
  show (((x % 65536).toNat : Nat) : Int) = x % 65536
  omega

theorem prom_range (x : BitVec 16) : 0 ≤ prom x ∧ prom x < 65536 := by
  unfold prom
  have := x.isLt
  omega

theorem roundRow_ok (row : List (BitVec 16)) (hl : row.length = 256) :
    Ok (loop N row fun j row => do
      let x ← rd row j
      wr row j (u16 (isar (← iadd (prom x) h1) (EQ - EP)))) fun r => r.length = 256 ∧ ∀ k, toP r k = (toP row k + 4) / 8 := by
  rw [loop_rows 256 row hl 0 (fun j => u16 ((prom (row.getD j 0) + 4) / 8))]
  · refine Ok.pure ⟨by simp, fun k => ?_⟩
    have := prom_range (row.getD k.val 0)
    show (((((List.range 256).map fun j => u16 ((prom (row.getD j 0) + 4) / 8)).getD k.val 0).toNat : Nat) : Int) = (prom (row.getD k.val 0) + 4) / 8
    rw [getD_map_range _ _ _ _ k.isLt, u16_small (by omega) (by omega)]
  · intro j a' hj ha hr
    have := prom_range (row.getD j 0)
    rw [rd_ok 0 (by omega), ok_bind, hr, iadd_ok (by rw [show h1 = 4 from rfl]; omega), ok_bind, wr_ok (by omega)]
    rfl

theorem roundVec_ok (P : PSet) (b : List (List (BitVec 16))) (hb : IsVec P.L b) :
    Ok (roundVec P b) fun r => IsVec P.L r ∧ ∀ i k, toV P.L r i k = (toV P.L b i k + 4) / 8 := by
  unfold roundVec
  refine (loop_inv (fun n (r : List (List (BitVec 16))) => IsVec P.L r ∧ ∀ i, i < P.L → ∀ k, toP (r.getD i []) k =
    if i < n then (toP (b.getD i []) k + 4) / 8 else toP (b.getD i []) k) ⟨hb, fun i _ k => by simp⟩ ?_).mono ?_
  · rintro i r hi ⟨hv, h⟩
    refine (rowLoop_ok N i [] r (by rw [hv.1]; exact hi) _ _ _ ?_ (roundRow_ok (r.getD i []) (hv.2 i hi))).mono ?_
    · intro j r hj hir
      rw [rd_ok [] hir, ok_bind]
      simp only [bind_assoc]
    · rintro r' ⟨v, ⟨hvl, hvm⟩, rfl⟩
      refine ⟨⟨by simp [hv.1], ?_⟩, ?_⟩
      · intro i' hi'
        rw [getD_set]; split
        · exact hvl
        · exact hv.2 i' hi'
      · intro i' hi' k
        rw [getD_set]
        by_cases hii : i = i'
        · subst hii
          rw [if_pos ⟨rfl, by rw [hv.1]; exact hi⟩, hvm k, if_pos (by omega), h i hi k, if_neg (by omega)]
        · rw [if_neg (by tauto), h i' hi' k]
          by_cases h3 : i' < i
          · rw [if_pos h3, if_pos (by omega)]
          · rw [if_neg h3, if_neg (by omega)]
  · rintro r ⟨hv, h⟩
    refine ⟨hv, fun i k => ?_⟩
    have := h i.val i.isLt k
    rwa [if_pos i.isLt] at this

theorem roundP_congr {y : Poly} {x : Poly} (h : EqMod 8192 y x) : EqMod 1024 (fun k => (y k + 4) / 8) (roundP x) := by
  intro k
  have := h k
  simp only [roundP, Spec.h1]
  omega

theorem encRound_ok (P : PSet) (vp mp : List (BitVec 16)) (hv : vp.length = 256) (hm : mp.length = 256) :
    Ok (encRound P vp mp) fun r => r.length = 256 ∧
      ∀ k, toP r k = ((toP vp k - 512 * toP mp k + 4) / 2 ^ (10 - P.ET)) % 65536 := by
  unfold encRound
  rw [loop_rows 256 vp hv 0 (fun j => u16 ((prom (vp.getD j 0) - 512 * prom (mp.getD j 0) + 4) / 2 ^ (10 - P.ET)))]
  · refine Ok.pure ⟨by simp, fun k => ?_⟩
    show (((((List.range 256).map fun j => u16 ((prom (vp.getD j 0) - 512 * prom (mp.getD j 0) + 4) / 2 ^ (10 - P.ET))).getD k.val 0).toNat : Nat) : Int)
      = ((prom (vp.getD k.val 0) - 512 * prom (mp.getD k.val 0) + 4) / 2 ^ (10 - P.ET)) % 65536
    rw [getD_map_range _ _ _ _ k.isLt, u16_mod]
  · intro j a' hj ha hr
    have h1' := prom_range (vp.getD j 0)
    have h2' := prom_range (mp.getD j 0)
    rw [rd_ok 0 (by omega), ok_bind, hr, rd_ok 0 (by omega), ok_bind,
      ishl_ok (a := prom (mp.getD j 0)) (k := EP - 1) ⟨h2'.1, by simp only [EP]; omega⟩ (by decide), ok_bind,
      isub_ok (by simp only [EP]; omega), ok_bind, iadd_ok (by rw [show h1 = 4 from rfl]; simp only [EP]; omega), ok_bind, wr_ok (by omega)]
    have e : prom (vp.getD j 0) - prom (mp.getD j 0) * 2 ^ (EP - 1) + h1 = prom (vp.getD j 0) - 512 * prom (mp.getD j 0) + 4 := by
      rw [show h1 = 4 from rfl]; simp only [EP]; omega
    rw [e]; rfl

theorem encodeMsg_congr (P : PSet) {y v m m' : Poly} (hy : EqMod 1024 y v) (hm : ∀ k, m' k = m k) :
    EqMod (2 ^ P.ET) (fun k => ((y k - 512 * m' k + 4) / 2 ^ (10 - P.ET)) % 65536) (encodeMsg P.ET v m) := by
  intro k
  have := hy k
  beta_reduce
  rw [hm k]
  cases P <;> simp only [encodeMsg, PSet.ET, Spec.h1] <;> norm_num <;> omega

theorem decRound_ok (P : PSet) (v cm : List (BitVec 16)) (hv : v.length = 256) (hm : cm.length = 256) :
    Ok (decRound P v cm) fun r => r.length = 256 ∧
      ∀ k, toP r k = ((toP v k + h2 P - 2 ^ (10 - P.ET) * toP cm k) / 512) % 65536 := by
  unfold decRound
  rw [loop_rows 256 v hv 0 (fun j => u16 ((prom (v.getD j 0) + h2 P - 2 ^ (10 - P.ET) * prom (cm.getD j 0)) / 512))]
  · refine Ok.pure ⟨by simp, fun k => ?_⟩
    show (((((List.range 256).map fun j => u16 ((prom (v.getD j 0) + h2 P - 2 ^ (10 - P.ET) * prom (cm.getD j 0)) / 512)).getD k.val 0).toNat : Nat) : Int)
      = ((prom (v.getD k.val 0) + h2 P - 2 ^ (10 - P.ET) * prom (cm.getD k.val 0)) / 512) % 65536
    rw [getD_map_range _ _ _ _ k.isLt, u16_mod]
  · intro j a' hj ha hr
    have h1' := prom_range (v.getD j 0)
    have h2' := prom_range (cm.getD j 0)
    have hh : 0 ≤ h2 P ∧ h2 P ≤ 1024 := by cases P <;> decide
    have hp : ∃ c : Int, (2 : Int) ^ (EP - P.ET) = c ∧ 1 ≤ c ∧ c ≤ 128 := ⟨_, rfl, by cases P <;> decide⟩
    obtain ⟨c, hc, hc1, hc2⟩ := hp
    have hmul : prom (cm.getD j 0) * c ≤ 65536 * 128 := Int.mul_le_mul (by omega) hc2 (by omega) (by omega)
    have hmul0 : 0 ≤ prom (cm.getD j 0) * c := Int.mul_nonneg (by omega) (by omega)
    rw [rd_ok 0 (by omega), ok_bind, hr, rd_ok 0 (by omega), ok_bind, iadd_ok (by omega), ok_bind,
      ishl_ok (a := prom (cm.getD j 0)) (k := EP - P.ET) ⟨h2'.1, by rw [hc]; omega⟩ (by cases P <;> decide), ok_bind, isub_ok (by rw [hc]; omega), ok_bind, wr_ok (by omega)]
    rw [mul_comm (prom (cm.getD j 0))]
    rfl

theorem decodeMsg_congr (P : PSet) {y v c : Poly} (hy : EqMod 1024 y v) :
    EqMod (2 ^ 1) (fun k => ((y k + h2 P - 2 ^ (10 - P.ET) * c k) / 512) % 65536) (decodeMsg P.ET v c) := by
  intro k
  have := hy k
  cases P <;> simp only [decodeMsg, PSet.ET, Spec.h2, h2, EP, EQ] <;> norm_num <;> omega

/-! ### The CPA-secure functions -/

/-- Asked for `n` bytes in state `st`, the generator delivers the bytes `r`, writes nothing else and goes to state `st'`. -/
def Delivers {σ : Type} (rb : RandomBytes σ) (n : Nat) (st : σ) (r : List Byte) (st' : σ) : Prop :=
  r.length = n ∧ ∀ buf off, off + n ≤ buf.length → rb buf off n st = .ok (writeAt buf off r, st')

theorem unpack_range (k : Nat) (bs : List Byte) (i : Fin 256) : 0 ≤ unpack k bs i ∧ unpack k bs i < 2 ^ k := by
  unfold unpack
  have := natOfBits_lt k fun j => bitAt bs (k * i.val + j)
  constructor
  · exact Int.natCast_nonneg _
  · exact_mod_cast this

theorem unpack_take (k n : Nat) (bs : List Byte) (h : 32 * k ≤ n) : unpack k (bs.take n) = unpack k bs := by
  funext i
  unfold unpack
  refine congrArg (Nat.cast (R := Int)) (natOfBits_congr fun j hj => ?_)
  have : k * i.val + j < k * 256 := by
    have := Nat.mul_le_mul_left k (show i.val + 1 ≤ 256 from i.isLt)
    rw [Nat.mul_succ] at this; omega
  unfold bitAt
  rw [getD_take _ _ _ _ (by omega)]

theorem unpackVec_take (k L n : Nat) (bs : List Byte) (h : L * (32 * k) ≤ n) : unpackVec k L (bs.take n) = unpackVec k L bs := by
  funext i
  unfold unpackVec
  have := Nat.mul_le_mul_right (32 * k) (show i.val + 1 ≤ L from i.isLt)
  rw [Nat.succ_mul, mul_comm i.val] at this
  rw [List.drop_take, unpack_take _ _ _ (by omega)]

theorem writeAt_concat {α : Type} (a : List α) (u v : List α) (h : a.length = u.length + v.length) :
    writeAt (writeAt a 0 u) u.length v = u ++ v := by
  have := writeAt_append a 0 u v (by omega)
  rw [Nat.zero_add] at this
  rw [this, writeAt_full _ _ (by simp [h])]

theorem writeAt_prefix {α : Type} (a u : List α) : writeAt a 0 u = u ++ a.drop u.length := by simp [writeAt]

theorem GenMatrix_spec (P : PSet) (A : List (List (List (BitVec 16)))) (hA : IsMat P.L A) (seed : List Byte) (off : Nat)
    (hs : off + 32 ≤ seed.length) : GenMatrix P A seed off = .ok (ofM (genMatrix P.spec ((seed.drop off).take 32))) := by
  rw [GenMatrix_ok P A hA seed off hs]; rfl

theorem GenSecret_spec (P : PSet) (s : List (List (BitVec 16))) (hs : IsVec P.L s) (seed : List Byte) (off : Nat)
    (hb : off + 32 ≤ seed.length) : GenSecret P s seed off = .ok (ofV (genSecret P.spec ((seed.drop off).take 32))) := by
  rw [GenSecret_ok P s hs seed off hb]; rfl

theorem indcpa_keypair_ok {σ : Type} (P : PSet) (rb : RandomBytes σ) (st st1 st2 : σ) (r1 r2 : List Byte)
    (h1 : Delivers rb 32 st r1 st1) (h2 : Delivers rb 32 st1 r2 st2)
    (pk sk : List Byte) (hpk : pk.length = P.INDCPA_PUBLICKEYBYTES) (hsk : P.INDCPA_SECRETKEYBYTES ≤ sk.length) :
    indcpa_kem_keypair P rb pk sk st =
      .ok (pkeKeyGenPk P.spec (Keccak.shake128 r1 32) r2, writeAt sk 0 (pkeKeyGenSk P.spec r2), st2) := by
  obtain ⟨hl1, hr1⟩ := h1
  obtain ⟨hl2, hr2⟩ := h2
  unfold indcpa_kem_keypair
  rw [hr1 _ _ (by simp), ok_bind]
  dsimp only
  rw [writeAt_full _ _ (by simp [hl1])]
  rw [shake128_ok _ _ _ _ _ _ (by simp [hl1]) (by simp [hl1]), ok_bind, List.drop_zero, List.take_of_length_le (by simp [hl1]),
    writeAt_full _ _ (by simp [hl1, length_shake128]), hr2 _ _ (by simp), ok_bind]
  dsimp only
  rw [writeAt_full _ _ (by simp [hl2])]
  have hlA := length_shake128 r1 32
  generalize Keccak.shake128 r1 32 = seedA at *
  rw [GenMatrix_spec P _ (isMat_uninitMat _ _) _ _ (by omega), ok_bind, GenSecret_spec P _ (isVec_uninitVec _ _) _ _ (by omega), ok_bind,
    List.drop_zero, List.drop_zero, List.take_of_length_le (show seedA.length ≤ 32 by omega), List.take_of_length_le (show r2.length ≤ 32 by omega)]
  obtain ⟨b, hb, hbv, hbm⟩ := MatrixVectorMul_ok P (ofM (genMatrix P.spec seedA)) (ofV (genSecret P.spec r2)) (zeroVec P.L) 1
    (isMat_ofM _) (isVec_ofV _) (isVec_zeroVec _)
  rw [hb, ok_bind]
  obtain ⟨b', hb', hbv', hbm'⟩ := roundVec_ok P b hbv
  rw [hb', ok_bind, POLVECq2BS_ok P sk 0 _ (isVec_ofV _) (by
    have : P.INDCPA_SECRETKEYBYTES = P.L * 416 := rfl
    omega), ok_bind]
  have hpl : P.INDCPA_PUBLICKEYBYTES = P.L * 320 + 32 := rfl
  rw [POLVECp2BS_ok P pk 0 _ hbv' (by omega), ok_bind]
  have epk : packVec 10 (toV P.L b') = packVec 10 (pubVec P.spec seedA r2) := by
    apply packVec_congr (by omega)
    intro i
    have : (fun k => (toV P.L b i k + 4) / 8) = toV P.L b' i := by funext k; rw [hbm']
    rw [← this]
    apply roundP_congr
    refine EqMod.trans (hbm i) ?_
    simp only [toV_zeroVec, zero_add, if_true]
    apply matVec_congr (m := 8192)
    · intro i j
      unfold transpose
      rw [toM_ofM]; exact toP_ofP_mod _ _ (by decide)
    · intro j
      rw [toV_ofV]; exact toP_ofP_mod _ _ (by decide)
  have esk : packVec 13 (toV P.L (ofV (genSecret P.spec r2))) = pkeKeyGenSk P.spec r2 := by
    apply packVec_congr (by omega)
    intro i
    rw [toV_ofV]; exact toP_ofP_mod _ _ (by decide)
  rw [epk, esk]
  have hlp : (packVec 10 (pubVec P.spec seedA r2)).length = P.L * 320 := length_packVec _ _ _
  have e1 : P.POLYVECCOMPRESSEDBYTES = P.L * 320 := rfl
  have e2 : SEEDBYTES = 32 := rfl
  rw [memcpy_ok _ _ _ _ _ (by omega) (by rw [length_writeAt _ _ _ (by omega)]; omega), ok_bind, List.drop_zero,
    List.take_of_length_le (by omega), e1, ← hlp, writeAt_concat _ _ _ (by omega)]
  rfl

theorem indcpa_enc_ok (P : PSet) (m : List Byte) (mOff : Nat) (seed : List Byte) (seedOff : Nat) (pk : List Byte) (pkOff : Nat)
    (c : List Byte) (hm : mOff + 32 ≤ m.length) (hs : seedOff + 32 ≤ seed.length)
    (hpk : pkOff + P.INDCPA_PUBLICKEYBYTES ≤ pk.length) (hc : c.length = P.BYTES_CCA_DEC) :
    indcpa_kem_enc P m mOff seed seedOff pk pkOff c =
      .ok (pkeEnc P.spec ((m.drop mOff).take 32) ((seed.drop seedOff).take 32) ((pk.drop pkOff).take P.INDCPA_PUBLICKEYBYTES)) := by
  have hpl : P.INDCPA_PUBLICKEYBYTES = P.L * 320 + 32 := rfl
  have e1 : P.POLYVECCOMPRESSEDBYTES = P.L * 320 := rfl
  have hcl : P.BYTES_CCA_DEC = P.L * 320 + 32 * P.ET := by cases P <;> rfl
  have ePK : ((pk.drop pkOff).take P.INDCPA_PUBLICKEYBYTES).drop (P.L * 320) = (pk.drop (pkOff + P.POLYVECCOMPRESSEDBYTES)).take 32 := by
    rw [List.drop_take, List.drop_drop, hpl, e1]; congr 1; omega
  unfold indcpa_kem_enc
  rw [GenMatrix_spec P _ (isMat_uninitMat _ _) _ _ (by omega), ok_bind, GenSecret_spec P _ (isVec_uninitVec _ _) _ _ (by omega), ok_bind,
    ← ePK]
  generalize hPKd : (pk.drop pkOff).take P.INDCPA_PUBLICKEYBYTES = PK
  have hPKl : PK.length = P.L * 320 + 32 := by rw [← hPKd]; simp; omega
  generalize hS : (seed.drop seedOff).take 32 = S
  obtain ⟨b, hb, hbv, hbm⟩ := MatrixVectorMul_ok P (ofM (genMatrix P.spec (PK.drop (P.L * 320)))) (ofV (genSecret P.spec S)) (zeroVec P.L) 0
    (isMat_ofM _) (isVec_ofV _) (isVec_zeroVec _)
  rw [hb, ok_bind]
  obtain ⟨b', hb', hbv', hbm'⟩ := roundVec_ok P b hbv
  rw [hb', ok_bind, POLVECp2BS_ok P c 0 _ hbv' (by omega), ok_bind, BS2POLVECp_ok P pk pkOff _ (isVec_uninitVec _ _) (by omega), ok_bind]
  obtain ⟨vp, hvp, hvl, hvm⟩ := InnerProd_ok P (ofV (unpackVec 10 P.L (pk.drop pkOff))) (ofV (genSecret P.spec S)) (List.replicate N 0)
    (isVec_ofV _) (isVec_ofV _) (by simp)
  rw [hvp, ok_bind, BS2POLmsg_ok m mOff _ (length_uninit _ _ _) (by omega), ok_bind]
  obtain ⟨w, hw, hwl, hwm⟩ := encRound_ok P vp (ofP (unpack 1 (m.drop mOff))) hvl (by simp)
  have ebp : packVec 10 (toV P.L b') =
      packVec 10 (fun i => roundP (matVec (genMatrix P.spec (PK.drop (P.L * 320))) (genSecret P.spec S) i)) := by
    apply packVec_congr (by omega)
    intro i
    have : (fun k => (toV P.L b i k + 4) / 8) = toV P.L b' i := by funext k; rw [hbm']
    rw [← this]
    apply roundP_congr
    refine EqMod.trans (hbm i) ?_
    simp only [toV_zeroVec, zero_add, show ¬ ((0 : Int) = 1) by decide, if_false]
    apply matVec_congr (m := 8192)
    · intro i j
      rw [toM_ofM]; exact toP_ofP_mod _ _ (by decide)
    · intro j
      rw [toV_ofV]; exact toP_ofP_mod _ _ (by decide)
  have eb : ∀ i, unpackVec 10 P.L (pk.drop pkOff) i = unpackVec 10 P.L PK i := by
    intro i
    rw [← hPKd, unpackVec_take _ _ _ _ (by omega)]
  have em : pack P.ET (toP w) = pack P.ET (encodeMsg P.ET (innerProd (unpackVec 10 P.L PK) (genSecret P.spec S)) (unpack 1 ((m.drop mOff).take 32))) := by
    apply pack_congr (by cases P <;> decide)
    have : toP w = fun k => ((toP vp k - 512 * toP (ofP (unpack 1 (m.drop mOff))) k + 4) / 2 ^ (10 - P.ET)) % 65536 := by
      funext k; rw [hwm]
    rw [this]
    apply encodeMsg_congr
    · refine EqMod.trans (EqMod.of_dvd (m := 8192) (by decide) hvm) ?_
      simp only [toP_zero, zero_add]
      apply innerProd_congr (m := 1024)
      · intro j
        rw [toV_ofV, ← eb]; exact toP_ofP_mod _ _ (by decide)
      · intro j
        rw [toV_ofV]; exact toP_ofP_mod _ _ (by decide)
    · intro k
      have h1 := unpack_range 1 (m.drop mOff) k
      rw [toP_ofP, Int.emod_eq_of_lt h1.1 (by omega)]
      rw [unpack_take _ _ _ (by omega)]
  have hlb : (packVec 10 (fun i => roundP (matVec (genMatrix P.spec (PK.drop (P.L * 320))) (genSecret P.spec S) i))).length = P.L * 320 :=
    length_packVec _ _ _
  rw [hw, ok_bind, ebp, POLT2BS_ok P _ _ _ hwl (by rw [length_writeAt _ _ _ (by omega)]; omega), em, e1]
  have := writeAt_concat c _ (pack P.ET (encodeMsg P.ET (innerProd (unpackVec 10 P.L PK) (genSecret P.spec S)) (unpack 1 ((m.drop mOff).take 32))))
    (show c.length = (packVec 10 (fun i => roundP (matVec (genMatrix P.spec (PK.drop (P.L * 320))) (genSecret P.spec S) i))).length + _ by
      rw [hlb, length_pack]; omega)
  rw [hlb] at this
  rw [this]
  rfl

theorem indcpa_dec_ok (P : PSet) (sk c m : List Byte) (hsk : P.INDCPA_SECRETKEYBYTES ≤ sk.length) (hc : P.BYTES_CCA_DEC ≤ c.length)
    (hm : 32 ≤ m.length) :
    indcpa_kem_dec P sk c m = .ok (writeAt m 0 (pkeDec P.spec (sk.take P.INDCPA_SECRETKEYBYTES) (c.take P.BYTES_CCA_DEC))) := by
  have hsl : P.INDCPA_SECRETKEYBYTES = P.L * 416 := rfl
  have e1 : P.POLYVECCOMPRESSEDBYTES = P.L * 320 := rfl
  have hcl : P.BYTES_CCA_DEC = P.L * 320 + 32 * P.ET := by cases P <;> rfl
  unfold indcpa_kem_dec
  rw [BS2POLVECq_ok P sk 0 _ (isVec_uninitVec _ _) (by omega), ok_bind, BS2POLVECp_ok P c 0 _ (isVec_uninitVec _ _) (by omega), ok_bind,
    List.drop_zero, List.drop_zero]
  obtain ⟨v, hv, hvl, hvm⟩ := InnerProd_ok P (ofV (unpackVec 10 P.L c)) (ofV (unpackVec 13 P.L sk)) (List.replicate N 0)
    (isVec_ofV _) (isVec_ofV _) (by simp)
  rw [hv, ok_bind, BS2POLT_ok P c _ _ (length_uninit _ _ _) (by omega), ok_bind, e1]
  obtain ⟨w, hw, hwl, hwm⟩ := decRound_ok P v (ofP (unpack P.ET (c.drop (P.L * 320)))) hvl (by simp)
  rw [hw, ok_bind, POLmsg2BS_ok _ _ _ hwl (by omega)]
  unfold pkeDec
  refine congrArg (fun z => Except.ok (writeAt m 0 z)) ?_
  apply pack_congr (by omega)
  have hcm : ∀ k, toP (ofP (unpack P.ET (c.drop (P.L * 320)))) k = unpack P.ET ((c.take P.BYTES_CCA_DEC).drop (P.L * 320)) k := by
    intro k
    have h1 := unpack_range P.ET (c.drop (P.L * 320)) k
    have h2 : (2 : Int) ^ P.ET ≤ 65536 := by cases P <;> decide
    rw [toP_ofP, Int.emod_eq_of_lt h1.1 (by omega)]
    rw [List.drop_take, unpack_take _ _ _ (by omega)]
  have : toP w = fun k => ((toP v k + h2 P - 2 ^ (10 - P.ET) * unpack P.ET ((c.take P.BYTES_CCA_DEC).drop (P.L * 320)) k) / 512) % 65536 := by
    funext k; rw [hwm, hcm]
  rw [this]
  apply decodeMsg_congr
  refine EqMod.trans (EqMod.of_dvd (m := 8192) (by decide) hvm) ?_
  simp only [toP_zero, zero_add]
  apply innerProd_congr (m := 1024)
  · intro j
    rw [toV_ofV]
    refine EqMod.trans (toP_ofP_mod _ _ (by decide)) ?_
    rw [unpackVec_take _ _ _ _ (by omega)]
    exact EqMod.refl _ _
  · intro j
    rw [toV_ofV]
    refine EqMod.trans (toP_ofP_mod _ _ (by decide)) ?_
    rw [unpackVec_take _ _ _ _ (by omega)]
    exact EqMod.refl _ _

end Saber
