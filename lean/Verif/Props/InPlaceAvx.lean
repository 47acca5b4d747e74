import Verif.Proof.InPlaceAvx
import Verif.Props.InPlaceKem
import Verif.Props.Avx
/-!
# C93 for the AVX2 implementation

For every placement of the buffers, also where the result is not that for separate buffers, the three functions do what those of the reference implementation do.
-/
namespace Saber.Props
open Spec

theorem avx_ctHead (P : PSet) (seedA S : List Byte) : Avx.InPlace.ctHead P USpec.fips202 seedA S = InPlace.ctHead P seedA S := by
  unfold Avx.InPlace.ctHead InPlace.ctHead
  rw [plain_roundP]
  rfl

theorem avx_seenPk (P : PSet) (mem : List Byte) (pkOff cOff : Nat) (S : List Byte) :
    Avx.InPlace.seenPk P USpec.fips202 mem pkOff cOff S = InPlace.seenPk P mem pkOff cOff S := by
  unfold Avx.InPlace.seenPk InPlace.seenPk
  rw [avx_ctHead]

theorem avx_pkeEnc (P : PSet) (m s pk : List Byte) : USpec.pkeEnc (Avx.spec P USpec.fips202) m s pk = pkeEnc P.spec m s pk := by
  have := plain_pkeEnc P m s pk
  rw [← avx_spec, params_eq] at this
  exact this

theorem avx_pkeDec (P : PSet) (sk c : List Byte) : USpec.pkeDec (Avx.spec P USpec.fips202) sk c = pkeDec P.spec sk c := by
  have := plain_pkeDec P sk c
  rw [← avx_spec, params_eq] at this
  exact this

theorem avx_kemPk (P : PSet) (r1 r2 : List Byte) : USpec.pkeKeyGenPk (Avx.spec P USpec.fips202) (USpec.fips202.prf r1 32) r2 = pkeKeyGenPk P.spec (Keccak.shake128 r1 32) r2 := by
  have := plain_kemPk P r1 r2
  rw [← avx_spec, params_eq] at this
  exact this

theorem avx_indcpa_enc (P : PSet) (m : List Byte) (mOff : Nat) (seed : List Byte) (seedOff : Nat) (mem : List Byte) (pkOff cOff : Nat)
    (hm : mOff + 32 ≤ m.length) (hs : seedOff + 32 ≤ seed.length)
    (hpk : pkOff + P.INDCPA_PUBLICKEYBYTES ≤ mem.length) (hc : cOff + P.BYTES_CCA_DEC ≤ mem.length) :
    Avx.InPlace.indcpa_kem_enc Avx.fips202 P m mOff seed seedOff mem pkOff cOff = InPlace.indcpa_kem_enc P m mOff seed seedOff mem pkOff cOff := by
  rw [Avx.InPlace.indcpa_enc_ok fips202_ok P _ _ _ _ _ _ _ hm hs hpk hc, InPlace.indcpa_enc_ok P _ _ _ _ _ _ _ hm hs hpk hc, avx_seenPk, avx_pkeEnc]

/-- C93: key generation of the AVX2 implementation, for all places of the two keys. -/
theorem C93_keypair_avx {σ : Type} (P : PSet) (rb : RandomBytes σ) (hrb : ∀ st, ∃ r st', Delivers rb 32 st r st') (st : σ) (mem : List Byte) (pkOff skOff : Nat)
    (hpk : pkOff + P.PUBLICKEYBYTES ≤ mem.length) (hsk : skOff + P.SECRETKEYBYTES ≤ mem.length) :
    Avx.InPlace.crypto_kem_keypair Avx.fips202 P rb mem pkOff skOff st = InPlace.crypto_kem_keypair P rb mem pkOff skOff st := by
  obtain ⟨r1, st1, h1⟩ := hrb st
  obtain ⟨r2, st2, h2⟩ := hrb st1
  have k2 := SK_eq P
  have k3 := KSK_eq P
  unfold Avx.InPlace.crypto_kem_keypair InPlace.crypto_kem_keypair
  rw [Avx.InPlace.indcpa_keypair_ok fips202_ok P rb st st1 st2 r1 r2 h1 h2 mem pkOff skOff hpk (by omega),
    InPlace.indcpa_keypair_ok P rb st st1 st2 r1 r2 h1 h2 mem pkOff skOff hpk (by omega), avx_kemPk]
  rfl

/-- C93: encapsulation of the AVX2 implementation, for all places of the three buffers. -/
theorem C93_enc_avx {σ : Type} (P : PSet) (rb : RandomBytes σ) (hrb : ∀ st, ∃ r st', Delivers rb 32 st r st') (st : σ) (mem : List Byte) (cOff kOff pkOff : Nat)
    (hc : cOff + P.BYTES_CCA_DEC ≤ mem.length) (hpk : pkOff + P.PUBLICKEYBYTES ≤ mem.length) :
    Avx.InPlace.crypto_kem_enc Avx.fips202 P rb mem cOff kOff pkOff st = InPlace.crypto_kem_enc P rb mem cOff kOff pkOff st := by
  obtain ⟨m0, st1, hl, hr⟩ := hrb st
  have k1 := PK_eq P
  have k4 : P.PUBLICKEYBYTES = P.INDCPA_PUBLICKEYBYTES := rfl
  have lm := length_sha3_256 m0
  have lp := length_sha3_256 ((mem.drop pkOff).take P.INDCPA_PUBLICKEYBYTES)
  have pre : ∀ t : Nat, ∃ b, b.length = 64 ∧ b = Keccak.sha3_256 m0 ++ Keccak.sha3_256 ((mem.drop pkOff).take P.INDCPA_PUBLICKEYBYTES) ∧
      ∀ {α : Type} (f : List Byte → σ → CM α), (do
        let (buf, st) ← rb (uninit 8 t 64) 0 32 st
        let buf ← sha3_256 buf 0 buf 0 32
        let buf ← sha3_256 buf 32 mem pkOff P.INDCPA_PUBLICKEYBYTES
        f buf st) = f b st1 := fun t => by
    refine ⟨_, ?_, rfl, fun f => ?_⟩
    · rw [List.length_append]; omega
    rw [hr _ _ (by simp), ok_bind]
    dsimp only
    have lw : (writeAt (uninit 8 t 64) 0 m0).length = 64 := by rw [length_writeAt _ _ _ (by simp; omega)]; simp
    have e1 : (writeAt (uninit 8 t 64) 0 m0).take 32 = m0 := by
      rw [writeAt_prefix, List.take_append_of_le_length (by omega), List.take_of_length_le (by omega)]
    rw [sha3_256_ok _ _ _ _ _ (by omega) (by omega), ok_bind, List.drop_zero, e1,
      sha3_256_ok _ _ _ _ _ (by rw [length_writeAt _ _ _ (by omega)]; omega) (by omega), ok_bind,
      writeAt_after _ _ _ _ _ (by omega) (by omega), writeAt_full _ _ (by rw [List.length_append]; omega)]
  obtain ⟨b, lb, eb, hA⟩ := pre 181
  obtain ⟨b', lb', eb', hR⟩ := pre 61
  obtain rfl : b' = b := eb'.trans eb.symm
  unfold Avx.InPlace.crypto_kem_enc InPlace.crypto_kem_enc
  refine (hA fun buf st => do
    let kr ← sha3_512 (uninit 8 180 64) 0 buf 0 64
    let mem ← Avx.InPlace.indcpa_kem_enc Avx.fips202 P buf 0 kr 32 mem pkOff cOff
    let kr ← sha3_256 kr 32 mem cOff P.BYTES_CCA_DEC
    let mem ← sha3_256 mem kOff kr 0 64
    pure ((0 : Int), mem, st)).trans (Eq.trans ?_ (hR fun buf st => do
    let kr ← sha3_512 (uninit 8 60 64) 0 buf 0 64
    let mem ← InPlace.indcpa_kem_enc P buf 0 kr 32 mem pkOff cOff
    let kr ← sha3_256 kr 32 mem cOff P.BYTES_CCA_DEC
    let mem ← sha3_256 mem kOff kr 0 64
    pure ((0 : Int), mem, st)).symm)
  have lk := length_sha3_512 b'
  have e : ∀ t, sha3_512 (uninit 8 t 64) 0 b' 0 64 = .ok (Keccak.sha3_512 b') := fun t => by
    rw [sha3_512_ok _ _ _ _ _ (by simp) (by omega), List.drop_zero, List.take_of_length_le (by omega), writeAt_full _ _ (by simp; omega)]
  show (sha3_512 (uninit 8 180 64) 0 b' 0 64 >>= _) = (sha3_512 (uninit 8 60 64) 0 b' 0 64 >>= _)
  rw [e, e, ok_bind, ok_bind, avx_indcpa_enc P _ _ _ _ _ _ _ (by omega) (by omega) (by omega) hc]

/-- C93: decapsulation of the AVX2 implementation, for all places of the three buffers. -/
theorem C93_dec_avx (P : PSet) (mem : List Byte) (kOff cOff skOff : Nat) (hc : cOff + P.BYTES_CCA_DEC ≤ mem.length) (hsk : skOff + P.SECRETKEYBYTES ≤ mem.length) :
    Avx.InPlace.crypto_kem_dec Avx.fips202 P mem kOff cOff skOff = InPlace.crypto_kem_dec P mem kOff cOff skOff := by
  have k1 := PK_eq P
  have k2 := SK_eq P
  have k4 := KSK_eq P
  unfold Avx.InPlace.crypto_kem_dec InPlace.crypto_kem_dec
  dsimp only
  rw [Avx.indcpa_dec_ok P USpec.fips202 _ _ _ (by rw [List.length_drop]; omega) (by rw [List.length_drop]; omega) (by simp),
    indcpa_dec_ok P _ _ _ (by rw [List.length_drop]; omega) (by rw [List.length_drop]; omega) (by simp), avx_pkeDec, ok_bind, ok_bind]
  have lM := length_pkeDec P.spec ((mem.drop skOff).take P.INDCPA_SECRETKEYBYTES) ((mem.drop cOff).take P.BYTES_CCA_DEC)
  generalize pkeDec P.spec ((mem.drop skOff).take P.INDCPA_SECRETKEYBYTES) ((mem.drop cOff).take P.BYTES_CCA_DEC) = M at lM
  have lH : ((mem.drop (skOff + (P.SECRETKEYBYTES - 64))).take 32).length = 32 := by simp; omega
  have hl : ∀ t, (loop 32 (writeAt (uninit 8 t 64) 0 M) fun i buf => do
      let v ← rd mem (skOff + (P.SECRETKEYBYTES - 64) + i)
      wr buf (32 + i) v) = .ok (M ++ (mem.drop (skOff + (P.SECRETKEYBYTES - 64))).take 32) := fun t => by
    have h := memcpy_ok (writeAt (uninit 8 t 64) 0 M) 32 mem (skOff + (P.SECRETKEYBYTES - 64)) 32 (by omega)
      (by rw [length_writeAt _ _ _ (by simp; omega)]; simp)
    unfold memcpy at h
    rw [h, writeAt_after _ _ _ _ _ (by omega) (by simp; omega), writeAt_full _ _ (by simp; omega)]
  rw [hl, hl, ok_bind, ok_bind]
  generalize hb : M ++ (mem.drop (skOff + (P.SECRETKEYBYTES - 64))).take 32 = b
  have lb : b.length = 64 := by rw [← hb, List.length_append]; omega
  have lk := length_sha3_512 b
  have e : ∀ t, sha3_512 (uninit 8 t 64) 0 b 0 64 = .ok (Keccak.sha3_512 b) := fun t => by
    rw [sha3_512_ok _ _ _ _ _ (by simp) (by omega), List.drop_zero, List.take_of_length_le (by omega), writeAt_full _ _ (by simp; omega)]
  show (sha3_512 (uninit 8 184 64) 0 b 0 64 >>= _) = (sha3_512 (uninit 8 64 64) 0 b 0 64 >>= _)
  rw [e, e, ok_bind, ok_bind, Avx.indcpa_enc_ok fips202_ok P _ _ _ _ _ _ _ (by omega) (by omega) (by omega) (by simp),
    indcpa_enc_ok P _ _ _ _ _ _ _ (by omega) (by omega) (by omega) (by simp), avx_pkeEnc, ok_bind, ok_bind]
  rfl

/-- The hypotheses are met, with the shared secret over the ciphertext. -/
example : ∃ mem', Avx.InPlace.crypto_kem_dec Avx.fips202 .saber (List.replicate 4096 0) 2304 2304 0 = .ok (0, mem') ∧ mem'.length = 4096 := by
  have b1 : PSet.saber.BYTES_CCA_DEC = 1088 := rfl
  have b2 : PSet.saber.SECRETKEYBYTES = 2304 := rfl
  have l : (List.replicate 4096 (0 : Byte)).length = 4096 := List.length_replicate
  obtain ⟨m, h, hr⟩ := C93_dec .saber (List.replicate 4096 0) 2304 2304 0 (by omega) (by omega) (by omega)
  exact ⟨m, (C93_dec_avx _ _ _ _ _ (by omega) (by omega)).trans h, hr.1.trans l⟩

end Saber.Props
