import Verif.Model.M4.Kem
import Verif.Proof.M4.Enc
import Verif.Proof.Kem
import Verif.Proof.RoundTrip
/-!
# Cortex-M4: `SABER_indcpa.c` and `kem.c`
-/
namespace Saber.M4
open Spec

variable {P : PSet} {lib : Fips202Lib} {St : List Byte → Nat → lib.Ctx → Prop} {toom : Toom} {cs : Bool}

theorem SK_eq (P : PSet) (cs : Bool) : INDCPA_SECRETKEYBYTES P cs = P.L * POLYSECRETBYTES cs := rfl
theorem KSK_eq (P : PSet) (cs : Bool) :
    SECRETKEYBYTES P cs = INDCPA_SECRETKEYBYTES P cs + (P.L * 320 + 32) + 32 + 32 := rfl

theorem SK_ge (P : PSet) (cs : Bool) : 32 ≤ INDCPA_SECRETKEYBYTES P cs := by cases P <;> cases cs <;> decide

theorem indcpa_keypair_ok {σ : Type} (hl : lib.CorrectWith St) (ht : ToomOk toom) (rb : RandomBytes σ) (st st1 st2 : σ) (r1 r2 : List Byte)
    (h1 : Delivers rb 32 st r1 st1) (h2 : Delivers rb 32 st1 r2 st2)
    (pk sk : List Byte) (hpk : pk.length = P.INDCPA_PUBLICKEYBYTES) (hsk : INDCPA_SECRETKEYBYTES P cs ≤ sk.length) :
    M4.indcpa_kem_keypair P lib toom cs rb pk sk st =
      .ok (pkeKeyGenPk P.spec (Keccak.shake128 r1 32) r2, writeAt sk 0 (skBytes P cs r2), st2) := by
  obtain ⟨hl1, hr1⟩ := h1
  obtain ⟨hl2, hr2⟩ := h2
  have k1 := PK_eq P
  have k2 := SK_ge P cs
  unfold M4.indcpa_kem_keypair
  have e1 : P.POLYVECCOMPRESSEDBYTES = P.L * 320 := rfl
  have e2 : SEEDBYTES = 32 := rfl
  have e3 : NOISE_SEEDBYTES = 32 := rfl
  rw [e1, e2, e3, hr1 _ _ (by omega), ok_bind]
  dsimp only
  rw [hr2 _ _ (by omega), ok_bind]
  dsimp only
  have lp : (writeAt pk (P.L * 320) r1).length = pk.length := length_writeAt _ _ _ (by omega)
  rw [hl.shake128 _ _ _ _ _ _ (by omega) (by omega), ok_bind]
  have ed : ((writeAt pk (P.L * 320) r1).drop (P.L * 320)).take 32 = r1 := by
    unfold writeAt
    rw [List.append_assoc, List.drop_append_of_le_length (by rw [List.length_take]; omega),
      List.drop_of_length_le (by rw [List.length_take]; omega), List.nil_append, List.take_append_of_le_length (by omega),
      List.take_of_length_le (by omega)]
  have ls := length_shake128 r1 32
  rw [ed]
  have lp2 : (writeAt (writeAt pk (P.L * 320) r1) (P.L * 320) (Keccak.shake128 r1 32)).length = pk.length := by
    rw [length_writeAt _ _ _ (by omega), lp]
  have lk : (writeAt sk 0 r2).length = sk.length := length_writeAt _ _ _ (by omega)
  rw [MatrixVectorMulKeyPair_ok hl ht _ _ (by omega) (by omega) (by omega), ok_bind]
  have ed2 : (writeAt (writeAt pk (P.L * 320) r1) (P.L * 320) (Keccak.shake128 r1 32)).drop (P.L * 320) = Keccak.shake128 r1 32 := by
    generalize writeAt pk (P.L * 320) r1 = q at *
    unfold writeAt
    rw [List.append_assoc, List.drop_append_of_le_length (by rw [List.length_take]; omega),
      List.drop_of_length_le (by rw [List.length_take]; omega), List.nil_append, List.drop_of_length_le (by omega), List.append_nil]
  have et : (writeAt sk 0 r2).take 32 = r2 := by
    rw [writeAt_prefix, List.take_append_of_le_length (by omega), List.take_of_length_le (by omega)]
  rw [ed2, et]
  have ew : writeAt (writeAt sk 0 r2) 0 (skBytes P cs r2) = writeAt sk 0 (skBytes P cs r2) := by
    have := length_skBytes P cs r2
    rw [writeAt_prefix, writeAt_prefix, writeAt_prefix, List.drop_append, List.drop_of_length_le (by omega), List.nil_append, List.drop_drop]
    congr 2
    omega
  rw [ew]
  rfl

theorem indcpa_enc_ok (hl : lib.CorrectWith St) (ht : ToomOk toom) (m : List Byte) (mOff : Nat) (seed : List Byte) (seedOff : Nat)
    (pk : List Byte) (pkOff : Nat) (c : List Byte) (hm : mOff + 32 ≤ m.length) (hs : seedOff + 32 ≤ seed.length)
    (hpk : pkOff + P.INDCPA_PUBLICKEYBYTES ≤ pk.length) (hc : c.length = P.BYTES_CCA_DEC) :
    M4.indcpa_kem_enc P lib toom cs m mOff seed seedOff pk pkOff c =
      .ok (pkeEnc P.spec ((m.drop mOff).take 32) ((seed.drop seedOff).take 32) ((pk.drop pkOff).take P.INDCPA_PUBLICKEYBYTES)) := by
  have k1 := PK_eq P
  have k3 := CT_eq P
  have e1 : P.POLYVECCOMPRESSEDBYTES = P.L * 320 := rfl
  unfold M4.indcpa_kem_enc
  rw [e1, GenSecret_ok hl P cs _ (isVec_uninitVec _ _) seed seedOff hs, ok_bind]
  dsimp only
  generalize (seed.drop seedOff).take 32 = S
  rw [MatrixVectorMulEnc_ok hl ht c pk _ S (by omega) (by omega), ok_bind]
  have hlb := length_packVec 10 P.L (fun i => roundP (matVec (genMatrix P.spec ((pk.drop (pkOff + P.L * 320)).take 32)) (genSecret P.spec S) i))
  rw [InnerProdEnc_ok ht _ _ pk pkOff S m mOff (by omega) hm (by rw [length_writeAt _ _ _ (by rw [hlb]; omega)]; omega)]
  have key : ∀ u v : List Byte, u.length = P.L * 320 → v.length = 32 * P.ET → writeAt (writeAt c 0 u) (P.L * 320) v = u ++ v := by
    intro u v hu hv
    rw [← hu]
    exact writeAt_concat _ _ _ (by omega)
  rw [key _ _ hlb (length_pack _ _)]
  have ePK : ((pk.drop pkOff).take P.INDCPA_PUBLICKEYBYTES).drop (P.L * 320) = (pk.drop (pkOff + P.L * 320)).take 32 := by
    rw [List.drop_take, List.drop_drop]; congr 1; omega
  have eU : unpackVec 10 P.L ((pk.drop pkOff).take P.INDCPA_PUBLICKEYBYTES) = unpackVec 10 P.L (pk.drop pkOff) := by
    funext i; rw [unpackVec_take _ _ _ _ (by omega)]
  rw [← ePK, ← eU, ← unpack_take 1 32 (m.drop mOff) (by omega)]
  rfl

theorem flag_ok : ∀ f : Fin 256, (((~~~(BitVec.ofNat 32 f.val) + 1) >>> 31).setWidth 8 : Byte) = if f.val = 0 then 0 else 1 := by
  decide +kernel

theorem flag_ok' (f : BitVec 32) (h : f.toNat < 256) : (((~~~f + 1) >>> 31).setWidth 8 : Byte) = if f = 0 then 0 else 1 := by
  have := flag_ok ⟨f.toNat, h⟩
  dsimp only at this
  rw [BitVec.ofNat_toNat, BitVec.setWidth_eq] at this
  rw [this]
  have e : f.toNat = 0 ↔ f = 0 := (BitVec.toNat_eq (x := f) (y := 0)).symm
  by_cases hf : f = 0
  · rw [if_pos (e.2 hf), if_pos hf]
  · rw [if_neg (fun h => hf (e.1 h)), if_neg hf]

theorem indcpa_enc_cmp_ok (hl : lib.CorrectWith St) (ht : ToomOk toom) (m : List Byte) (mOff : Nat) (seed : List Byte) (seedOff : Nat)
    (pk : List Byte) (pkOff : Nat) (c : List Byte) (hm : mOff + 32 ≤ m.length) (hs : seedOff + 32 ≤ seed.length)
    (hpk : pkOff + P.INDCPA_PUBLICKEYBYTES ≤ pk.length) (hc : P.BYTES_CCA_DEC ≤ c.length) :
    indcpa_kem_enc_cmp P lib toom cs m mOff seed seedOff pk pkOff c =
      .ok (if c.take P.BYTES_CCA_DEC =
        pkeEnc P.spec ((m.drop mOff).take 32) ((seed.drop seedOff).take 32) ((pk.drop pkOff).take P.INDCPA_PUBLICKEYBYTES) then 0 else 1) := by
  have k1 := PK_eq P
  have k3 := CT_eq P
  have e1 : P.POLYVECCOMPRESSEDBYTES = P.L * 320 := rfl
  apply M0.eq_of_Ok
  unfold indcpa_kem_enc_cmp
  rw [e1, GenSecret_ok hl P cs _ (isVec_uninitVec _ _) seed seedOff hs, ok_bind]
  dsimp only
  generalize (seed.drop seedOff).take 32 = S
  refine (MatrixVectorMulEnc_cmp_ok hl ht c pk (pkOff + P.L * 320) S (by omega) (by omega)).bind fun f ⟨f1, f2⟩ => ?_
  refine (InnerProdEnc_cmp_ok ht c (P.L * 320) pk pkOff S m mOff (by omega) hm (by omega)).bind fun g ⟨g1, g2⟩ => ?_
  refine Ok.pure ?_
  have e0 : (0 : BitVec 32) ||| f ||| g = f ||| g := by rw [show (0 : BitVec 32) = 0#32 from rfl, BitVec.zero_or]
  have ePK : ((pk.drop pkOff).take P.INDCPA_PUBLICKEYBYTES).drop (P.L * 320) = (pk.drop (pkOff + P.L * 320)).take 32 := by
    rw [List.drop_take, List.drop_drop]; congr 1; omega
  have eU : unpackVec 10 P.L ((pk.drop pkOff).take P.INDCPA_PUBLICKEYBYTES) = unpackVec 10 P.L (pk.drop pkOff) := by
    funext i; rw [unpackVec_take _ _ _ _ (by omega)]
  rw [← ePK] at f2
  rw [← eU, ← unpack_take 1 32 (m.drop mOff) (by omega)] at g2
  rw [e0, flag_ok' _ (or_lt _ _ f1 g1)]
  refine if_congr ?_ rfl rfl
  rw [or_eq_zero32, f2, g2, k3, List.take_add]
  constructor
  · rintro ⟨a, b⟩
    rw [a, b]; rfl
  · intro h
    have hlb := length_packVec 10 P.L (fun i => roundP (matVec (genMatrix P.spec (((pk.drop pkOff).take P.INDCPA_PUBLICKEYBYTES).drop (P.L * 320)))
      (genSecret P.spec S) i))
    refine List.append_inj h ?_
    rw [List.length_take]
    refine Eq.trans ?_ hlb.symm
    omega

/-- The secret key in the format of the reference implementation. -/
def normSk (P : PSet) (cs : Bool) (sk : List Byte) : List Byte := if cs then expandSk P.spec sk else sk

theorem normSk_drop (P : PSet) (cs : Bool) (sk : List Byte) (n : Nat) :
    (normSk P cs sk).drop (P.L * 416 + n) = sk.drop (INDCPA_SECRETKEYBYTES P cs + n) := by
  cases cs
  · rfl
  · show (packVec 13 (unpackVecS4 P.L sk) ++ sk.drop (P.L * 128)).drop (P.L * 416 + n) = sk.drop (P.L * 128 + n)
    have := length_packVec 13 P.L (unpackVecS4 P.L sk)
    rw [List.drop_append, List.drop_of_length_le (by omega), List.nil_append, List.drop_drop]
    congr 1
    omega

theorem unpack_packS (P : PSet) (cs : Bool) (sk : List Byte) (i : Fin P.L) :
    EqMod 8192 (unpackVec 13 P.L ((normSk P cs sk).take (P.L * 416)) i) (skVec P cs sk i) := by
  rw [unpackVec_take _ _ _ _ (by omega)]
  cases cs
  · exact EqMod.refl _ _
  · show EqMod 8192 (unpackVec 13 P.L (packVec 13 (unpackVecS4 P.L sk) ++ sk.drop (P.L * 128)) i) (unpackVecS4 P.L sk i)
    intro k
    rw [unpackVec_packVec]
    exact Int.emod_emod_of_dvd _ (by decide)

theorem decapsM_eq (P : PSet) (cs : Bool) (sk c : List Byte) : decapsM P.spec (normSk P cs sk) c =
    pack 1 (decodeMsg P.ET (innerProd (unpackVec 10 P.L c) (skVec P cs sk)) (unpack P.ET (c.drop (P.L * 320)))) := by
  unfold decapsM pkeDec
  apply pack_congr (by omega)
  have h := innerProd_congr (m := 1024) (b := unpackVec 10 P.L c) (b' := unpackVec 10 P.L c) (fun j => EqMod.refl _ _)
    (fun j => EqMod.of_dvd (by decide) (unpack_packS P cs sk j))
  intro k
  have := h k
  show decodeMsg P.ET _ _ k % _ = _
  unfold decodeMsg
  have e : (innerProd (unpackVec 10 P.L c) (unpackVec 13 P.L (skCpa P.spec (normSk P cs sk))) k
      - 2 ^ (10 - P.ET) * unpack P.ET (c.drop (P.L * 320)) k + Spec.h2 P.ET) % 1024 =
    (innerProd (unpackVec 10 P.L c) (skVec P cs sk) k - 2 ^ (10 - P.ET) * unpack P.ET (c.drop (P.L * 320)) k + Spec.h2 P.ET) % 1024 := by
    have t : innerProd (unpackVec 10 P.L c) (unpackVec 13 P.L (skCpa P.spec (normSk P cs sk))) k % 1024 =
      innerProd (unpackVec 10 P.L c) (skVec P cs sk) k % 1024 := this
    generalize 2 ^ (10 - P.ET) * unpack P.ET (c.drop (P.L * 320)) k = x
    omega
  exact congrArg (fun z => z / 512 % 2 ^ 1) e

theorem cmov_eq (r : List Byte) (rOff : Nat) (x : List Byte) (xOff len : Nat) (b : Byte) :
    M4.cmov r rOff x xOff len b = Saber.cmov r rOff x xOff len b := rfl

theorem crypto_kem_keypair_ok {σ : Type} (hl : lib.CorrectWith St) (ht : ToomOk toom) (rb : RandomBytes σ) (st st1 st2 st3 : σ)
    (r1 r2 z : List Byte) (h1 : Delivers rb 32 st r1 st1) (h2 : Delivers rb 32 st1 r2 st2) (h3 : Delivers rb 32 st2 z st3)
    (pk sk : List Byte) (hpk : pk.length = P.PUBLICKEYBYTES) (hsk : sk.length = SECRETKEYBYTES P cs) :
    M4.crypto_kem_keypair P lib toom cs rb pk sk st =
      .ok (0, kemPk P.spec r1 r2, if cs then kemSkC P.spec r1 r2 z else kemSk P.spec r1 r2 z, st3) := by
  have k1 := PK_eq P
  have k3 := KSK_eq P cs
  unfold M4.crypto_kem_keypair
  rw [indcpa_keypair_ok hl ht rb st st1 st2 r1 r2 h1 h2 pk sk hpk (by omega), ok_bind]
  dsimp only
  obtain ⟨hl3, hr3⟩ := h3
  change (_ : List Byte).length = P.INDCPA_PUBLICKEYBYTES at hpk
  have e0 : pkeKeyGenPk P.spec (Keccak.shake128 r1 32) r2 = kemPk P.spec r1 r2 := rfl
  have l1 : (kemPk P.spec r1 r2).length = P.L * 320 + 32 := length_kemPk _ _ _
  have l2 := length_skBytes P cs r2
  rw [e0]
  generalize hK : kemPk P.spec r1 r2 = K at *
  generalize hB : skBytes P cs r2 = B at *
  generalize hn : INDCPA_SECRETKEYBYTES P cs = n at *
  rw [memcpy_ok _ _ _ _ _ (by omega) (by rw [length_writeAt _ _ _ (by omega)]; omega), ok_bind, List.drop_zero, List.take_of_length_le (by omega),
    writeAt_after _ _ _ _ _ (by omega) (by omega)]
  have l3 : (B ++ K).length = n + (P.L * 320 + 32) := by rw [List.length_append]; omega
  rw [hl.sha3_256 _ _ _ _ _ (by rw [length_writeAt _ _ _ (by omega)]; omega) (by omega), ok_bind, List.drop_zero,
    List.take_of_length_le (by omega)]
  have l4 := length_sha3_256 K
  rw [writeAt_after _ _ _ _ _ (by omega) (by omega)]
  have l5 : (B ++ K ++ Keccak.sha3_256 K).length = n + (P.L * 320 + 32) + 32 := by
    rw [List.length_append]; omega
  rw [show KEYBYTES = 32 from rfl, hr3 _ _ (by rw [length_writeAt _ _ _ (by omega)]; omega), ok_bind]
  dsimp only
  rw [writeAt_after _ _ _ _ _ (by omega) (by omega), writeAt_full _ _ (by rw [List.length_append]; omega)]
  have : (B ++ K ++ Keccak.sha3_256 K ++ z) = if cs then kemSkC P.spec r1 r2 z else kemSk P.spec r1 r2 z := by
    rw [← hB, ← hK]
    cases cs <;> rfl
  rw [this]; rfl

theorem crypto_kem_enc_ok {σ : Type} (hl : lib.CorrectWith St) (ht : ToomOk toom) (rb : RandomBytes σ) (st st1 : σ) (m0 : List Byte)
    (h1 : Delivers rb 32 st m0 st1) (c k pk : List Byte) (hc : c.length = P.BYTES_CCA_DEC) (hk : k.length = 32)
    (hpk : pk.length = P.PUBLICKEYBYTES) :
    M4.crypto_kem_enc P lib toom cs rb c k pk st = .ok (0, encapsC P.spec m0 pk, encapsK P.spec m0 pk, st1) := by
  have k1 := PK_eq P
  have k3 := CT_eq P
  change pk.length = P.INDCPA_PUBLICKEYBYTES at hpk
  obtain ⟨hl', hr⟩ := h1
  unfold M4.crypto_kem_enc
  dsimp only
  rw [hr _ _ (by simp), ok_bind]
  dsimp only
  have lw : (writeAt (uninit 8 146 64) 0 m0).length = 64 := by rw [length_writeAt _ _ _ (by simp; omega)]; simp
  rw [hl.sha3_256 _ _ _ _ _ (by omega) (by omega), ok_bind, List.drop_zero]
  have e1 : (writeAt (uninit 8 146 64) 0 m0).take 32 = m0 := by
    rw [writeAt_prefix, List.take_append_of_le_length (by omega), List.take_of_length_le (by omega)]
  rw [e1]
  have lm := length_sha3_256 m0
  have lp := length_sha3_256 pk
  rw [hl.sha3_256 _ _ _ _ _ (by rw [length_writeAt _ _ _ (by omega)]; omega) (by omega), ok_bind, List.drop_zero,
    List.take_of_length_le (show pk.length ≤ P.INDCPA_PUBLICKEYBYTES by omega),
    writeAt_after _ _ _ _ _ (by omega) (by omega), writeAt_full _ _ (by rw [List.length_append]; omega)]
  have lb : (Keccak.sha3_256 m0 ++ Keccak.sha3_256 pk).length = 64 := by rw [List.length_append]; omega
  rw [hl.sha3_512 _ _ _ _ _ (by simp) (by omega), ok_bind, List.drop_zero, List.take_of_length_le (by omega)]
  have lk := length_sha3_512 (Keccak.sha3_256 m0 ++ Keccak.sha3_256 pk)
  rw [writeAt_full _ _ (by simp; omega), indcpa_enc_ok hl ht _ _ _ _ _ _ _ (by omega) (by omega) (by omega) hc, ok_bind, List.drop_zero, List.drop_zero,
    List.take_append_of_le_length (by omega), List.take_of_length_le (show (Keccak.sha3_256 m0).length ≤ 32 by omega),
    List.take_of_length_le (show pk.length ≤ P.INDCPA_PUBLICKEYBYTES by omega),
    List.take_of_length_le (show (List.drop 32 _).length ≤ 32 by rw [List.length_drop]; omega)]
  have ec : pkeEnc P.spec (Keccak.sha3_256 m0) ((Keccak.sha3_512 (Keccak.sha3_256 m0 ++ Keccak.sha3_256 pk)).drop 32) pk = encapsC P.spec m0 pk := rfl
  rw [ec]
  have lc : (encapsC P.spec m0 pk).length = P.L * 320 + 32 * P.ET := length_pkeEnc _ _ _ _
  rw [hl.sha3_256 _ _ _ _ _ (by omega) (by omega), ok_bind, List.drop_zero, List.take_of_length_le (show (encapsC P.spec m0 pk).length ≤ P.BYTES_CCA_DEC by omega)]
  have lh := length_sha3_256 (encapsC P.spec m0 pk)
  rw [hl.sha3_256 _ _ _ _ _ (by omega) (by rw [length_writeAt _ _ _ (by omega)]; omega), ok_bind, List.drop_zero,
    List.take_of_length_le (show (writeAt _ _ _).length ≤ 64 by rw [length_writeAt _ _ _ (by omega)]; omega),
    writeAt_full k _ (by rw [length_sha3_256]; omega)]
  have e2 : writeAt (Keccak.sha3_512 (Keccak.sha3_256 m0 ++ Keccak.sha3_256 pk)) 32 (Keccak.sha3_256 (encapsC P.spec m0 pk)) =
      (kemKr (Keccak.sha3_256 m0) (Keccak.sha3_256 pk)).take 32 ++ Keccak.sha3_256 (encapsC P.spec m0 pk) := by
    unfold writeAt
    rw [List.drop_of_length_le (by omega), List.append_nil]; rfl
  rw [e2]
  rfl

theorem crypto_kem_dec_ok (hl : lib.CorrectWith St) (ht : ToomOk toom) (k c sk : List Byte) (hk : k.length = 32)
    (hc : c.length = P.BYTES_CCA_DEC) (hsk : sk.length = SECRETKEYBYTES P cs) :
    M4.crypto_kem_dec P lib toom cs k c sk = .ok (0, decaps P.spec (normSk P cs sk) c) := by
  have k1 := PK_eq P
  have k3 := CT_eq P
  have k4 := KSK_eq P cs
  unfold M4.crypto_kem_dec M4.indcpa_kem_dec
  dsimp only
  rw [InnerProdDec_ok ht _ c sk (by omega) (by omega) (by simp), ok_bind, ← decapsM_eq]
  have lM : (decapsM P.spec (normSk P cs sk) c).length = 32 := length_pkeDec _ _ _
  rw [memcpy_ok _ _ _ _ _ (by omega) (by rw [length_writeAt _ _ _ (by simp; omega)]; simp), ok_bind]
  have eH : (sk.drop (SECRETKEYBYTES P cs - 64)).take 32 = skHpk P.spec (normSk P cs sk) := by
    unfold skHpk
    rw [show P.spec.l = P.L from rfl, normSk_drop]
    congr 2
  have eP : (sk.drop (INDCPA_SECRETKEYBYTES P cs)).take P.INDCPA_PUBLICKEYBYTES = skPk P.spec (normSk P cs sk) := by
    unfold skPk
    have := normSk_drop P cs sk 0
    rw [show P.spec.l = P.L from rfl, ← Nat.add_zero (P.L * 416), this]; rfl
  have eZ : (sk.drop (SECRETKEYBYTES P cs - KEYBYTES)).take KEYBYTES = skZ P.spec (normSk P cs sk) := by
    unfold skZ
    rw [show P.spec.l = P.L from rfl, Nat.add_assoc (P.L * 416), normSk_drop, show KEYBYTES = 32 from rfl]
    congr 2
  have lH : (skHpk P.spec (normSk P cs sk)).length = 32 := by rw [← eH]; simp; omega
  have lZ : (skZ P.spec (normSk P cs sk)).length = 32 := by rw [← eZ]; simp [KEYBYTES]; omega
  rw [eH]
  rw [writeAt_after _ _ _ _ _ (by omega) (by simp; omega), writeAt_full _ _ (by simp; omega)]
  rw [hl.sha3_512 _ _ _ _ _ (by simp) (by simp; omega), ok_bind, List.drop_zero, List.take_of_length_le (by simp; omega)]
  generalize normSk P cs sk = nk at *
  have eK : Keccak.sha3_512 (decapsM P.spec nk c ++ skHpk P.spec nk) = decapsKr P.spec nk c := rfl
  rw [eK]
  have lk : (decapsKr P.spec nk c).length = 64 := length_sha3_512 _
  rw [writeAt_full _ _ (by simp; omega), indcpa_enc_cmp_ok hl ht _ _ _ _ _ _ _ (by simp; omega) (by omega) (by omega) (by omega), ok_bind, List.drop_zero,
    List.take_append_of_le_length (by omega), List.take_of_length_le (show (decapsM P.spec nk c).length ≤ 32 by omega),
    List.take_of_length_le (show (List.drop 32 _).length ≤ 32 by rw [List.length_drop]; omega), eP,
    List.take_of_length_le (show c.length ≤ P.BYTES_CCA_DEC by omega)]
  have ec : pkeEnc P.spec (decapsM P.spec nk c) ((decapsKr P.spec nk c).drop 32) (skPk P.spec nk) = reEncrypt P.spec nk c := rfl
  rw [ec, hl.sha3_256 _ _ _ _ _ (by omega) (by omega), ok_bind, List.drop_zero, List.take_of_length_le (show c.length ≤ P.BYTES_CCA_DEC by omega)]
  have lh := length_sha3_256 c
  have e2 : writeAt (decapsKr P.spec nk c) 32 (Keccak.sha3_256 c) = (decapsKr P.spec nk c).take 32 ++ Keccak.sha3_256 c := by
    unfold writeAt
    rw [List.drop_of_length_le (by omega), List.append_nil]
  rw [e2, cmov_eq]
  unfold decaps
  by_cases hq : c = reEncrypt P.spec nk c
  · rw [if_pos hq, if_pos hq]
    rw [cmov_zero_ok _ _ _ _ _ (by simp [KEYBYTES]; omega) (by simp only [KEYBYTES]; omega), ok_bind, hl.sha3_256 _ _ _ _ _ (by omega) (by simp; omega), ok_bind,
      List.drop_zero, List.take_of_length_le (by simp; omega), writeAt_full k _ (by rw [length_sha3_256]; omega)]
    rfl
  · rw [if_neg hq, if_neg hq]
    rw [cmov_one_ok _ _ _ _ _ (by simp [KEYBYTES]; omega) (by simp only [KEYBYTES]; omega), ok_bind, eZ, hl.sha3_256 _ _ _ _ _ (by omega)
      (by rw [length_writeAt _ _ _ (by simp; omega)]; simp; omega), ok_bind,
      List.drop_zero, List.take_of_length_le (by rw [length_writeAt _ _ _ (by simp; omega)]; simp; omega), writeAt_full k _ (by rw [length_sha3_256]; omega)]
    have e3 : writeAt ((decapsKr P.spec nk c).take 32 ++ Keccak.sha3_256 c) 0 (skZ P.spec nk) = skZ P.spec nk ++ Keccak.sha3_256 c := by
      rw [writeAt_prefix, List.drop_append_of_le_length (by simp; omega), List.drop_of_length_le (by simp; omega), List.nil_append]
    rw [e3]
    rfl

/-! ### The compressed secret key -/

theorem signed4_emod (k : Int) (h : -8 ≤ k ∧ k < 8) : signed4 (k % 16) = k := by
  unfold signed4
  split <;> omega

theorem genSecret_range (P : PSet) (seed : List Byte) (i : Fin P.L) (n : Fin 256) :
    -8 ≤ genSecret P.spec seed i n ∧ genSecret P.spec seed i n < 8 := by
  have hmu : P.MU / 2 ≤ 5 := by cases P <;> decide
  have := centredBinomial_range P.MU ((Keccak.shake128 seed (P.L * P.MU * 32)).drop (i.val * P.MU * 32)) n
  have e : genSecret P.spec seed i n = centredBinomial P.MU ((Keccak.shake128 seed (P.L * P.MU * 32)).drop (i.val * P.MU * 32)) n := rfl
  omega

/-- The compressed secret vector expands to the secret vector. -/
theorem unpackVecS4_gen (P : PSet) (seed rest : List Byte) :
    unpackVecS4 P.L (pkeKeyGenSkC P.spec seed ++ rest) = genSecret P.spec seed := by
  funext i n
  unfold unpackVecS4 pkeKeyGenSkC
  have e : unpackVec 4 P.L (packVec 4 (genSecret P.spec seed) ++ rest) i n = genSecret P.spec seed i n % 2 ^ 4 := unpackVec_packVec 4 _ rest i n
  rw [e]
  exact signed4_emod _ (genSecret_range P seed i n)

theorem expandSk_gen (P : PSet) (r1 r2 z : List Byte) : expandSk P.spec (kemSkC P.spec r1 r2 z) = kemSk P.spec r1 r2 z := by
  have hl : (pkeKeyGenSkC P.spec r2).length = P.L * 128 := length_packVec _ _ _
  unfold expandSk kemSkC kemSk
  have e := unpackVecS4_gen P r2 (kemPk P.spec r1 r2 ++ Keccak.sha3_256 (kemPk P.spec r1 r2) ++ z)
  rw [show P.spec.l = P.L from rfl, List.append_assoc, List.append_assoc, ← List.append_assoc (kemPk P.spec r1 r2), e,
    List.drop_append, List.drop_of_length_le (by omega), hl, Nat.sub_self, List.drop_zero, List.nil_append, ← List.append_assoc, ← List.append_assoc]
  rfl

end Saber.M4
