import Verif.Proof.M0.Encode
/-!
# The CPA-secure functions of the Cortex-M0 port
-/
namespace Saber.M0
open Saber Spec Spec.Keccak

variable [Spec.Keccak.Permutation] [StatePermute] [Permutes]

/-- The static variables of `GenMatrix_poly` have the sizes of their declarations. -/
def GSOk (g : GS) : Prop := g.buf.length = 280 ∧ g.s.length = 25

omit [StatePermute] [Permutes] in
theorem MState_zero {g : GS} (h : GSOk g) (seed : List Byte) : MState seed 0 g := by
  unfold MState; rw [if_pos rfl]; exact h

omit [Permutation] [StatePermute] [Permutes] in
theorem zeroVec_ok : (loop K (uninitVec 143 K) fun i res => loop N res fun j res => do
    let ri ← rd res i
    let ri ← wr ri j 0
    wr res i ri) = .ok (zeroVec 3) := by
  have hu : IsVec 3 (uninitVec 143 3) := isVec_uninitVec _ _
  show loop 3 (uninitVec 143 3) _ = _
  rw [loop_rows 3 (uninitVec 143 3) hu.1 [] (fun _ => List.replicate 256 0)]
  · rfl
  · intro i a' hi ha hr
    refine eq_of_Ok ((rowLoop_ok N i [] a' (by omega) (fun j r => wr r j 0) (· = List.replicate 256 0) _ ?_ ?_).mono ?_)
    · intro j r hj hir
      rw [rd_ok [] hir, ok_bind]
    · rw [hr]
      refine ⟨_, ?_, rfl⟩
      have h2 := hu.2 i hi
      generalize (uninitVec 143 3).getD i [] = row at h2
      have := memset_ok row 0 (0 : BitVec 16) N (by simp [h2])
      unfold memset at this
      simp only [Nat.zero_add] at this
      rw [this, writeAt_full _ _ (by simp [h2])]
    · rintro r ⟨w, rfl, rfl⟩
      rfl

omit [Permutation] [StatePermute] [Permutes] in
theorem roundVec_m0 (b : List (List (BitVec 16))) (hb : IsVec 3 b) :
    Ok (loop K b fun i res => do
      let ri ← rd res i
      let ri ← roundRow ri
      wr res i ri) fun r => IsVec 3 r ∧ ∀ i, i < 3 → ∀ k, toP (r.getD i []) k = (toP (b.getD i []) k + 4) % 65536 / 8 := by
  refine (loop_inv (fun n (r : List (List (BitVec 16))) => IsVec 3 r ∧ ∀ i, i < 3 → ∀ k, toP (r.getD i []) k =
    if i < n then (toP (b.getD i []) k + 4) % 65536 / 8 else toP (b.getD i []) k) ⟨hb, fun i _ k => by simp⟩ ?_).mono ?_
  · rintro i r hi ⟨hv, h⟩
    replace hi : i < 3 := hi
    obtain ⟨r', e, hl, hr'⟩ := roundRow_m0 (r.getD i []) (hv.2 i hi)
    rw [rd_ok [] (by rw [hv.1]; exact hi), ok_bind, e, ok_bind, wr_ok (by rw [hv.1]; exact hi)]
    refine Ok.pure ⟨⟨by simp [hv.1], fun i' hi' => ?_⟩, fun i' hi' k => ?_⟩
    · rw [getD_set]; split
      · exact hl
      · exact hv.2 i' hi'
    · rw [getD_set]
      by_cases hii : i = i'
      · subst hii
        rw [if_pos ⟨rfl, by rw [hv.1]; exact hi⟩, hr' k, if_pos (by omega), h i hi k, if_neg (by omega)]
      · rw [if_neg (fun hc => hii hc.1), h i' hi' k]
        by_cases h3 : i' < i
        · rw [if_pos h3, if_pos (by omega)]
        · rw [if_neg h3, if_neg (by omega)]
  · rintro r ⟨hv, h⟩
    refine ⟨hv, fun i hi k => ?_⟩
    have := h i hi k
    rwa [if_pos hi] at this

/-- The secret vector as the port stores it. -/
def secV (S : List Byte) : PVec 3 := fun i k => genSecret saber S i k % 8192

theorem GenSecret_secV (r : List (List (BitVec 16))) (hr : IsVec 3 r) (seed : List Byte) (off : Nat) (h : off + 32 ≤ seed.length) :
    GenSecret r seed off = .ok (ofV (secV ((seed.drop off).take 32))) := GenSecret_m0 r hr seed off h

omit [StatePermute] [Permutes] in
theorem secV_mod (S : List Byte) (i : Fin 3) : EqMod 8192 (toV 3 (ofV (secV S)) i) (genSecret saber S i) := by
  rw [toV_ofV]
  exact EqMod.trans (toP_ofP_mod _ _ (by decide)) fun k => Int.emod_emod_of_dvd _ (by norm_num)

omit [StatePermute] [Permutes] in
theorem matVecT_row (seed : List Byte) (s : List (List (BitVec 16))) (j : Fin 3) (k : Fin 256) :
    ∑ i ∈ Finset.range 3, negMul (mA seed i j.val) (toP (s.getD i [])) k = matVec (transpose (genMatrix saber seed)) (toV 3 s) j k := by
  rw [Finset.sum_range]
  refine Finset.sum_congr rfl fun i _ => ?_
  exact congrArg (fun a => negMul a (toP (s.getD i.val [])) k) (genMatrix_eq seed i j).symm

omit [StatePermute] [Permutes] in
theorem pubVec_m0 (seed S : List Byte) (b b' : List (List (BitVec 16)))
    (hbm : ∀ j, j < 3 → ∀ k, toP (b.getD j []) k % 65536 = (toP ((zeroVec 3).getD j []) k +
      ∑ i ∈ Finset.range 3, negMul (mA seed i j) (toP ((ofV (secV S)).getD i [])) k) % 65536)
    (hbm' : ∀ i, i < 3 → ∀ k, toP (b'.getD i []) k = (toP (b.getD i []) k + 4) % 65536 / 8) :
    packVec 10 (toV 3 b') = packVec 10 (pubVec saber seed S) := by
  apply packVec_congr (by omega)
  intro i
  have : toV 3 b' i = fun k => (toP (b.getD i.val []) k + 4) % 65536 / 8 := by funext k; exact hbm' i.val i.isLt k
  rw [this]
  apply roundP_congr_m0
  intro k
  have h3 := hbm i.val i.isLt k
  have hz : toP ((zeroVec 3).getD i.val []) k = 0 := toV_zeroVec 3 i k
  rw [hz, zero_add, matVecT_row] at h3
  have h4 : toP (b.getD i.val []) k % 8192 = _ := Int.ModEq.of_mul_right (m := 8) h3
  rw [h4]
  exact matVec_congr (m := 8192) (fun _ _ => EqMod.refl _ _) (secV_mod S) i k

omit [StatePermute] [Permutes] in
theorem secVec_m0 (S : List Byte) : packVec 13 (toV 3 (ofV (secV S))) = pkeKeyGenSk saber S :=
  packVec_congr (by omega) (secV_mod S)

theorem keypair_m0 {σ : Type} {E : UB → Prop} {mac : Mac} (hm : ∀ c a b, OkE E (mac c a b) (· = c + a * b))
    (rb : RandomBytes σ) (st st1 st2 : σ) (r1 r2 : List Byte) (h1 : Delivers rb 32 st r1 st1) (h2 : Delivers rb 32 st1 r2 st2)
    (gs : GS) (hg : GSOk gs) (pk sk : List Byte) (hpk : pk.length = 992) (hsk : 1248 ≤ sk.length) :
    OkE E (indcpa_kem_keypair mac rb gs pk sk st)
      (· = (pkeKeyGenPk saber (Keccak.shake128 r1 32) r2, writeAt sk 0 (pkeKeyGenSk saber r2), st2)) := by
  obtain ⟨hl1, hr1⟩ := h1
  obtain ⟨hl2, hr2⟩ := h2
  unfold indcpa_kem_keypair
  rw [hr1 _ _ (by simp), ok_bind]
  dsimp only
  rw [writeAt_full _ _ (by simp [hl1])]
  rw [shake128_m0 _ _ _ _ _ _ (by simp [hl1]) (by simp [hl1]), ok_bind, List.drop_zero, List.take_of_length_le (by simp [hl1]),
    writeAt_full _ _ (by simp [hl1, length_shake128]), hr2 _ _ (by simp), ok_bind]
  dsimp only
  rw [writeAt_full _ _ (by simp [hl2])]
  have hlA := length_shake128 r1 32
  have e2 : SEEDBYTES = 32 := rfl
  rw [e2]
  generalize Keccak.shake128 r1 32 = seedA at *
  rw [GenSecret_secV _ (isVec_uninitVec _ _) _ _ (by omega), ok_bind, List.drop_zero, List.take_of_length_le (show r2.length ≤ 32 by omega),
    zeroVec_ok, ok_bind]
  refine (mul_keypair_ok hm seedA hlA _ _ (isVec_ofV _) (isVec_zeroVec 3) gs (MState_zero hg _)).bind ?_
  rintro b ⟨hbv, hbm⟩
  obtain ⟨b', hb', hbv', hbm'⟩ := roundVec_m0 b hbv
  rw [hb', ok_bind]
  rw [POLVECq2BS_m0 sk 0 _ (isVec_ofV _) (by omega), ok_bind, POLVECp2BS_m0 pk 0 _ hbv' (by omega), ok_bind,
    pubVec_m0 seedA r2 b b' hbm hbm', secVec_m0]
  have hlp : (packVec 10 (pubVec saber seedA r2)).length = 960 := length_packVec _ _ _
  have hcp := memcpy_ok (writeAt pk 0 (packVec 10 (pubVec saber seedA r2))) 960 seedA 0 32 (by omega)
    (by rw [length_writeAt _ _ _ (by omega)]; omega)
  unfold memcpy at hcp
  simp only [Nat.zero_add] at hcp
  rw [hcp, ok_bind, List.drop_zero, List.take_of_length_le (by omega), writeAt_after _ _ _ _ _ (by omega) (by omega),
    writeAt_full _ _ (by rw [List.length_append]; omega)]
  exact OkE.pure rfl

omit [Permutation] [StatePermute] [Permutes] in
theorem m0EncodeMsg_congr {x v m : Poly} (h : ∀ k, x k = v k % 1024 + 512 * m k) (h' : ∀ k, 0 ≤ m k) :
    EqMod (2 ^ 4) (fun k => x k / 64) (m0EncodeMsg v m) := by
  intro k
  have h1 := h k
  have h2 := h' k
  simp only [m0EncodeMsg]
  norm_num
  omega

theorem enc_m0 {E : UB → Prop} {mac : Mac} (hm : ∀ c a b, OkE E (mac c a b) (· = c + a * b)) (gs : GS) (hg : GSOk gs)
    (m : List Byte) (mOff : Nat) (seed : List Byte) (seedOff : Nat) (pk : List Byte) (pkOff : Nat) (c : List Byte)
    (hm32 : mOff + 32 ≤ m.length) (hs : seedOff + 32 ≤ seed.length) (hpk : pkOff + 992 ≤ pk.length) (hc : c.length = 1088) :
    OkE E (indcpa_kem_enc mac gs m mOff seed seedOff pk pkOff c)
      (· = m0PkeEnc ((m.drop mOff).take 32) ((seed.drop seedOff).take 32) ((pk.drop pkOff).take 992)) := by
  unfold indcpa_kem_enc
  have e2 : SEEDBYTES = 32 := rfl
  rw [e2]
  have hcp := memcpy_ok (uninit 8 150 32) 0 pk (pkOff + 960) 32 (by omega) (by simp)
  unfold memcpy at hcp
  simp only [Nat.zero_add, Nat.add_assoc] at hcp
  rw [hcp, ok_bind, writeAt_full _ _ (by simp; omega), GenSecret_secV _ (isVec_uninitVec _ _) _ _ hs, ok_bind]
  have ePK : ((pk.drop pkOff).take 992).drop 960 = (pk.drop (pkOff + 960)).take 32 := by
    rw [List.drop_take, List.drop_drop]
  rw [← ePK]
  generalize hPKd : (pk.drop pkOff).take 992 = PK
  have hPKl : PK.length = 992 := by rw [← hPKd]; simp; omega
  generalize (seed.drop seedOff).take 32 = S
  refine (mul_encryption_ok hm (PK.drop 960) (by simp [hPKl]) _ (isVec_ofV _) c (by omega) gs (MState_zero hg _)).bind ?_
  rintro ct rfl
  have ebp : packVec 10 (fun i : Fin 3 => roundP (matVec (genMatrix saber (PK.drop 960)) (toV 3 (ofV (secV S))) i)) =
      packVec 10 (fun i : Fin 3 => roundP (matVec (genMatrix saber (PK.drop 960)) (genSecret saber S) i)) := by
    apply packVec_congr (by omega)
    intro i k
    have := matVec_congr (m := 8192) (fun i j => EqMod.refl _ (genMatrix saber (PK.drop 960) i j)) (secV_mod S) i k
    simp only [roundP, Spec.h1]
    norm_num at this ⊢
    omega
  rw [fill_ok, ok_bind]
  obtain ⟨s', es, hsv, hsm⟩ := maskVec_ok (ofV (secV S)) (isVec_ofV _)
  rw [es, ok_bind]
  refine (vectorMul_ok hm pk pkOff (by omega) s' hsv).bind ?_
  rintro v ⟨hvl, hv⟩
  obtain ⟨w, ew, hwl, hw⟩ := addMsg_ok m mOff v hvl hm32 (fun k => by rw [hv k]; exact Int.emod_lt_of_pos _ (by norm_num))
  rw [ew, ok_bind, genCipherText_ok w hwl _ (by simp), ok_bind, ebp]
  have em : pack 4 (fun k => toP w k / 64) =
      pack 4 (m0EncodeMsg (innerProd (unpackVec 10 3 PK) (genSecret saber S)) (unpack 1 ((m.drop mOff).take 32))) := by
    apply pack_congr (by omega)
    apply m0EncodeMsg_congr
    · intro k
      rw [hw k, hv k, unpack_take 1 32 (m.drop mOff) (by omega), ← hPKd, unpackVec_take 10 3 992 _ (by omega)]
      refine congrArg (· + 512 * unpack 1 (m.drop mOff) k) ?_
      refine innerProd_congr (m := 1024) (fun _ => EqMod.refl _ _) (fun j k => ?_) k
      have h1 := hsm j.val j.isLt k
      change toP (s'.getD j.val []) k % 1024 = _
      rw [h1, Int.emod_emod_of_dvd _ (by norm_num)]
      exact EqMod.of_dvd (by norm_num) (secV_mod S j) k
    · exact fun k => (unpack_range 1 _ k).1
  rw [em]
  have hlb : (packVec 10 (fun i : Fin 3 => roundP (matVec (genMatrix saber (PK.drop 960)) (genSecret saber S) i))).length = 960 :=
    length_packVec _ _ _
  have hle : (pack 4 (m0EncodeMsg (innerProd (unpackVec 10 3 PK) (genSecret saber S)) (unpack 1 ((m.drop mOff).take 32)))).length = 128 :=
    length_pack _ _
  have hcp := memcpy_ok (writeAt c 0 (packVec 10 (fun i : Fin 3 => roundP (matVec (genMatrix saber (PK.drop 960)) (genSecret saber S) i)))) 960
    (pack 4 (m0EncodeMsg (innerProd (unpackVec 10 3 PK) (genSecret saber S)) (unpack 1 ((m.drop mOff).take 32)))) 0 128 (by omega)
    (by rw [length_writeAt _ _ _ (by omega)]; omega)
  unfold memcpy at hcp
  simp only [Nat.zero_add] at hcp
  rw [hcp, List.drop_zero, List.take_of_length_le (by omega), writeAt_after _ _ _ _ _ (by omega) (by omega),
    writeAt_full _ _ (by rw [List.length_append]; omega)]
  exact OkE.pure rfl

omit [Permutation] [StatePermute] [Permutes] in
theorem dec_m0 {E : UB → Prop} {mac : Mac} (hm : ∀ c a b, OkE E (mac c a b) (· = c + a * b)) (sk c m : List Byte) (hsk : 1248 ≤ sk.length)
    (hc : 1088 ≤ c.length) :
    (512 ≤ m.length → OkE E (indcpa_kem_dec mac sk c m) (· = writeAt m 0 (m0Words (m0DecBits sk c)))) ∧
    (m.length < 512 → OkE (fun e => E e ∨ e = .oob) (indcpa_kem_dec mac sk c m) fun _ => False) := by
  have H : OkE E (do
      let sksv ← BS2POLVECq sk 0 (uninitVec 160 K)
      let v ← loop N (uninit 16 161 N) fun i v => wr v i 0
      let sksv ← maskVec sksv
      VectorMul mac c 0 sksv v) fun v => ExtractKeyBits v c 960 m =
        if 512 ≤ m.length then .ok (writeAt m 0 (m0Words (m0DecBits sk c))) else .error .oob := by
    rw [BS2POLVECq_m0 sk 0 _ (isVec_uninitVec _ _) (by omega), ok_bind, fill_ok, ok_bind, List.drop_zero]
    obtain ⟨s', es, hsv, hsm⟩ := maskVec_ok (ofV (unpackVec 13 3 sk)) (isVec_ofV _)
    rw [es, ok_bind]
    refine (vectorMul_ok hm c 0 (by omega) s' hsv).mono ?_
    rintro v ⟨hvl, hv⟩
    rw [extractKeyBits_ok v hvl (fun k => by rw [hv k]; exact Int.emod_lt_of_pos _ (by norm_num)) c 960 (by omega) m]
    refine if_congr Iff.rfl ?_ rfl
    refine congrArg (fun p => Except.ok (writeAt m 0 (m0Words p))) ?_
    funext k
    have h1 : innerProd (unpackVec 10 3 c) (toV 3 s') k % 1024 = innerProd (unpackVec 10 3 c) (unpackVec 13 3 sk) k % 1024 := by
      refine innerProd_congr (m := 1024) (fun _ => EqMod.refl _ _) (fun j k => ?_) k
      change toP (s'.getD j.val []) k % 1024 = _
      rw [hsm j.val j.isLt k, Int.emod_emod_of_dvd _ (by norm_num)]
      have := toP_ofP_mod (unpackVec 13 3 sk j) 1024 (by decide) k
      rw [← toV_ofV] at this
      exact this
    have h2 := hv k
    rw [List.drop_zero] at h2
    simp only [m0DecBits, m0DecodeMsg]
    rw [h2]
    omega
  have e : indcpa_kem_dec mac sk c m = ((do
      let sksv ← BS2POLVECq sk 0 (uninitVec 160 K)
      let v ← loop N (uninit 16 161 N) fun i v => wr v i 0
      let sksv ← maskVec sksv
      VectorMul mac c 0 sksv v) >>= fun v => ExtractKeyBits v c 960 m) := by
    unfold indcpa_kem_dec
    simp only [bind_assoc]
  rw [e]
  constructor
  · intro h
    refine H.bind ?_
    intro v hv
    rw [hv, if_pos h]
    exact OkE.pure rfl
  · intro h
    rcases H with ⟨v, e1, hv⟩ | ⟨er, e1, he⟩
    · rw [e1, ok_bind, hv, if_neg (by omega)]
      exact .inr ⟨_, rfl, .inr rfl⟩
    · rw [e1]
      exact .inr ⟨_, rfl, .inl he⟩

end Saber.M0
