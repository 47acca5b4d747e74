import Verif.Props.Interop
import Verif.Proof.VectorData
/-!
# The first test vector of LightSaber

C05 and C92 assume that the noise of the exchange is in range.  This file shows that the assumption is met by the exchange of `KAT/LightSaber`, `count = 0`: the kernel
computes the hash values, the public key and the noise of this exchange from the random bytes (`Proof/VectorData.lean`).
-/
namespace Saber.Props
open Spec

attribute [local irreducible] bytesN co

theorem kat_matrix (i j : Fin 2) (N : Nat) (h : katBufA >>> (8 * ((i.val * 2 + j.val) * 416)) = N) :
    Rep N (genMatrix lightSaber (bytesN katSeedA 32) i j) := by
  intro k
  have hi := i.isLt
  have hj := j.isLt
  show unpack 13 ((Keccak.shake128 (bytesN katSeedA 32) 1664).drop ((i.val * 2 + j.val) * 416)) k % 8192 = _
  rw [shake_M, drop_bytesN, h, unpack_bytesN _ _ (by omega)]
  have := co_lt N k.val
  omega

theorem kat_secret (seed buf buf' N : Nat) (i : Fin 2) (hs : Keccak.shake128 (bytesN seed 32) 640 = bytesN buf 640)
    (hb : buf >>> (8 * (i.val * 10 * 32)) = buf') (h : checkCbd buf' N = true) : Rep N (genSecret lightSaber (bytesN seed 32) i) := by
  have hi := i.isLt
  show Rep N (centredBinomial 10 ((Keccak.shake128 (bytesN seed 32) 640).drop (i.val * 10 * 32)))
  rw [hs, drop_bytesN, hb]
  exact rep_cbd (by omega) h

theorem kat_U (i : Fin 2) : Rep (if i = 0 then katU0 else katU1)
    (matVec (transpose (genMatrix lightSaber (bytesN katSeedA 32))) (genSecret lightSaber (bytesN katR2 32)) i) := by
  have s0 := kat_secret katR2 katBufS katBufS0 katS0 0 shake_S katBufS0_eq katS0_ok
  have s1 := kat_secret katR2 katBufS katBufS1 katS1 1 shake_S katBufS1_eq katS1_ok
  match i with
  | 0 => exact rep2 (p := transpose (genMatrix lightSaber (bytesN katSeedA 32)) (0 : Fin 2)) katU0_ok (kat_matrix 0 0 _ katA00_eq) s0 (kat_matrix 1 0 _ katA10_eq) s1
  | 1 => exact rep2 (p := transpose (genMatrix lightSaber (bytesN katSeedA 32)) (1 : Fin 2)) katU1_ok (kat_matrix 0 1 _ katA01_eq) s0 (kat_matrix 1 1 _ katA11_eq) s1

theorem kat_W (i : Fin 2) : Rep (if i = 0 then katW0 else katW1)
    (matVec (genMatrix lightSaber (bytesN katSeedA 32)) (genSecret lightSaber (bytesN katCoins 32)) i) := by
  have s0 := kat_secret katCoins katBufT katBufT0 katT0 0 shake_T katBufT0_eq katT0_ok
  have s1 := kat_secret katCoins katBufT katBufT1 katT1 1 shake_T katBufT1_eq katT1_ok
  match i with
  | 0 => exact rep2 (p := genMatrix lightSaber (bytesN katSeedA 32) (0 : Fin 2)) katW0_ok (kat_matrix 0 0 _ katA00_eq) s0 (kat_matrix 0 1 _ katA01_eq) s1
  | 1 => exact rep2 (p := genMatrix lightSaber (bytesN katSeedA 32) (1 : Fin 2)) katW1_ok (kat_matrix 1 0 _ katA10_eq) s0 (kat_matrix 1 1 _ katA11_eq) s1

theorem packVec_two (w : Nat) (v : Fin 2 → Poly) : packVec w v = pack w (v 0) ++ pack w (v 1) := by
  rw [packVec, show List.finRange 2 = [0, 1] from by decide, List.flatMap_cons, List.flatMap_cons, List.flatMap_nil, List.append_nil]

/-- The specification computes the public key that the file prints, from the random bytes of its program. -/
theorem kat_pk : kemPk lightSaber (bytesN katR1 32) (bytesN katR2 32) = bytesN katPk 672 := by
  unfold kemPk pkeKeyGenPk
  rw [shake_A]
  have b0 := pack_bytesN katB0 (pubVec lightSaber (bytesN katSeedA 32) (bytesN katR2 32) (0 : Fin 2)) (rep_round katB0_ok (kat_U 0))
  have b1 := pack_bytesN katB1 (pubVec lightSaber (bytesN katSeedA 32) (bytesN katR2 32) (1 : Fin 2)) (rep_round katB1_ok (kat_U 1))
  have e : packVec 10 (pubVec lightSaber (bytesN katSeedA 32) (bytesN katR2 32)) =
      pack 10 (pubVec lightSaber (bytesN katSeedA 32) (bytesN katR2 32) (0 : Fin 2)) ++ pack 10 (pubVec lightSaber (bytesN katSeedA 32) (bytesN katR2 32) (1 : Fin 2)) :=
    packVec_two _ _
  rw [e, b0, b1, katPk_eq]

/-- The coins of the encryption. -/
theorem kat_coins : (Keccak.sha3_512 (Keccak.sha3_256 (bytesN katM0 32) ++
    Keccak.sha3_256 (kemPk lightSaber (bytesN katR1 32) (bytesN katR2 32)))).drop 32 = bytesN katCoins 32 := by
  rw [kat_pk, sha3_P, sha3_H, katBuf64_eq, sha3_K, drop_bytesN, katCoins_eq]

/-- C05: the hypothesis on the noise is met by a complete exchange, that of the first test vector of LightSaber. -/
theorem C05_vector_noise (i : Fin 256) : NoiseOk (noise (params .light).eT (genMatrix (params .light) (Keccak.shake128 (bytesN katR1 32) 32))
    (genSecret (params .light) (bytesN katR2 32)) (genSecret (params .light) ((Keccak.sha3_512 (Keccak.sha3_256 (bytesN katM0 32) ++
      Keccak.sha3_256 (kemPk (params .light) (bytesN katR1 32) (bytesN katR2 32)))).drop 32))) i := by
  show NoiseOk (noise 3 (genMatrix lightSaber (Keccak.shake128 (bytesN katR1 32) 32)) (genSecret lightSaber (bytesN katR2 32))
    (genSecret lightSaber ((Keccak.sha3_512 (Keccak.sha3_256 (bytesN katM0 32) ++
      Keccak.sha3_256 (kemPk lightSaber (bytesN katR1 32) (bytesN katR2 32)))).drop 32))) i
  rw [kat_coins, shake_A]
  have s0 := kat_secret katR2 katBufS katBufS0 katS0 0 shake_S katBufS0_eq katS0_ok
  have s1 := kat_secret katR2 katBufS katBufS1 katS1 1 shake_S katBufS1_eq katS1_ok
  have t0 := kat_secret katCoins katBufT katBufT0 katT0 0 shake_T katBufT0_eq katT0_ok
  have t1 := kat_secret katCoins katBufT katBufT1 katT1 1 shake_T katBufT1_eq katT1_ok
  exact noise_ok katNoise_ok
    (rep2 (p := fun i => roundErr (matVec (genMatrix lightSaber (bytesN katSeedA 32)) (genSecret lightSaber (bytesN katCoins 32)) i)) katX_ok
      (rep_err katF0_ok (kat_W 0)) s0 (rep_err katF1_ok (kat_W 1)) s1)
    (rep2 (p := fun i => roundErr (matVec (transpose (genMatrix lightSaber (bytesN katSeedA 32))) (genSecret lightSaber (bytesN katR2 32)) i)) katY_ok
      (rep_err katE0_ok (kat_U 0)) t0 (rep_err katE1_ok (kat_U 1)) t1)
    (rep2 (p := fun i => roundP (matVec (transpose (genMatrix lightSaber (bytesN katSeedA 32))) (genSecret lightSaber (bytesN katR2 32)) i)) katV_ok
      (rep_same katBq0_ok (rep_round katB0_ok (kat_U 0))) t0 (rep_same katBq1_ok (rep_round katB1_ok (kat_U 1))) t1) i

/-- A generator that returns a list of strings of 32 bytes, one after another. -/
def replay : RandomBytes (List (List Byte)) := fun buf off n st => do
  let buf ← memcpy buf off (st.headD []) 0 n
  pure (buf, st.tail)

theorem replay_delivers (b : List Byte) (hb : b.length = 32) (st : List (List Byte)) : Delivers replay 32 (b :: st) b st :=
  ⟨hb, fun buf off h => by
    unfold replay
    dsimp only [List.headD_cons, List.tail_cons]
    rw [memcpy_ok _ _ _ _ _ (by omega) h, ok_bind, List.drop_zero, List.take_of_length_le (by omega)]; rfl⟩

/-- The specification computes the secret key that the file prints. -/
theorem kat_sk : kemSk lightSaber (bytesN katR1 32) (bytesN katR2 32) (bytesN katZ 32) = bytesN katSk 1568 := by
  have s0 := kat_secret katR2 katBufS katBufS0 katS0 0 shake_S katBufS0_eq katS0_ok
  have s1 := kat_secret katR2 katBufS katBufS1 katS1 1 shake_S katBufS1_eq katS1_ok
  have b0 := pack_rep s0
  have b1 := pack_rep s1
  have e : packVec 13 (genSecret lightSaber (bytesN katR2 32)) =
      pack 13 (genSecret lightSaber (bytesN katR2 32) (0 : Fin 2)) ++ pack 13 (genSecret lightSaber (bytesN katR2 32) (1 : Fin 2)) := packVec_two _ _
  unfold kemSk pkeKeyGenSk
  rw [kat_pk, sha3_P, e, b0, b1]
  exact katSk_eq

theorem kat_b (i : Fin 2) : Rep (if i = 0 then katBq0 else katBq1) (unpackVec 10 2 (bytesN katPk 672) i) := by
  match i with
  | 0 =>
    refine rep_same katPk0_ok fun k => ?_
    show unpack 10 ((bytesN katPk 672).drop (32 * 10 * 0)) k = _
    rw [drop_bytesN, katPk0_eq, unpackW_bytesN _ _ _ (by omega)]; rfl
  | 1 =>
    refine rep_same katPk1_ok fun k => ?_
    show unpack 10 ((bytesN katPk 672).drop (32 * 10 * 1)) k = _
    rw [drop_bytesN, katPk1_eq, unpackW_bytesN _ _ _ (by omega)]; rfl

/-- The specification computes the ciphertext that the file prints. -/
theorem kat_ct : encapsC lightSaber (bytesN katM0 32) (bytesN katPk 672) = bytesN katCt 736 := by
  have t0 := kat_secret katCoins katBufT katBufT0 katT0 0 shake_T katBufT0_eq katT0_ok
  have t1 := kat_secret katCoins katBufT katBufT1 katT1 1 shake_T katBufT1_eq katT1_ok
  have b0 := pack_bytesN katC0 _ (rep_round katC0_ok (kat_W 0))
  have b1 := pack_bytesN katC1 _ (rep_round katC1_ok (kat_W 1))
  have cm := enc_ok (n := 32) (by omega) katCm_ok (rep2 (p := unpackVec 10 2 (bytesN katPk 672)) katV_ok (kat_b 0) t0 (kat_b 1) t1)
  have e : packVec 10 (fun i => roundP (matVec (genMatrix lightSaber (bytesN katSeedA 32)) (genSecret lightSaber (bytesN katCoins 32)) i)) =
    pack 10 (roundP (matVec (genMatrix lightSaber (bytesN katSeedA 32)) (genSecret lightSaber (bytesN katCoins 32)) (0 : Fin 2))) ++
    pack 10 (roundP (matVec (genMatrix lightSaber (bytesN katSeedA 32)) (genSecret lightSaber (bytesN katCoins 32)) (1 : Fin 2))) := packVec_two _ _
  have d : (bytesN katPk 672).drop (lightSaber.l * 320) = bytesN katSeedA 32 := by
    show (bytesN katPk 672).drop (2 * 320) = _
    rw [drop_bytesN, katPk_seed]
  unfold encapsC kemKr
  dsimp only
  rw [sha3_P, sha3_H, katBuf64_eq, sha3_K, drop_bytesN, katCoins_eq]
  unfold pkeEnc
  dsimp only
  rw [d, e, b0, b1]
  refine Eq.trans ?_ katCt_eq
  exact congrArg _ cm

/-- The specification computes the shared secret that the file prints. -/
theorem kat_ss : encapsK lightSaber (bytesN katM0 32) (bytesN katPk 672) = bytesN katSs 32 := by
  unfold encapsK kemKey kemKr
  dsimp only
  rw [kat_ct, sha3_C, sha3_P, sha3_H, katBuf64_eq, sha3_K, katBufSs_eq, sha3_Z]

/-- C05: on this exchange the three functions return the keys, the ciphertext and the shared secret that the file prints. -/
theorem C05_vector (pkb skb cb kb kb' : List Byte) (hpk : pkb.length = 672) (hsk : skb.length = 1568) (hc : cb.length = 736) (hk : kb.length = 32)
    (hk' : kb'.length = 32) :
    crypto_kem_keypair .light replay pkb skb [bytesN katR1 32, bytesN katR2 32, bytesN katZ 32, bytesN katM0 32] =
        .ok (0, bytesN katPk 672, bytesN katSk 1568, [bytesN katM0 32]) ∧
      crypto_kem_enc .light replay cb kb (bytesN katPk 672) [bytesN katM0 32] = .ok (0, bytesN katCt 736, bytesN katSs 32, []) ∧
      crypto_kem_dec .light kb' (bytesN katCt 736) (bytesN katSk 1568) = .ok (0, bytesN katSs 32) := by
  have d1 := replay_delivers (bytesN katR1 32) (length_bytesN _ _) [bytesN katR2 32, bytesN katZ 32, bytesN katM0 32]
  have d2 := replay_delivers (bytesN katR2 32) (length_bytesN _ _) [bytesN katZ 32, bytesN katM0 32]
  have d3 := replay_delivers (bytesN katZ 32) (length_bytesN _ _) [bytesN katM0 32]
  have d4 := replay_delivers (bytesN katM0 32) (length_bytesN _ _) []
  have e1 := C01_keypair_spec .light replay _ _ _ _ _ _ _ d1 d2 d3 pkb skb hpk hsk
  have e2 := C02_enc_spec .light replay _ _ _ d4 cb kb (bytesN katPk 672) hc hk (length_bytesN _ _)
  have h1 : kemPk (params .light) (bytesN katR1 32) (bytesN katR2 32) = bytesN katPk 672 := kat_pk
  have h2 : kemSk (params .light) (bytesN katR1 32) (bytesN katR2 32) (bytesN katZ 32) = bytesN katSk 1568 := kat_sk
  have h3 : encapsC (params .light) (bytesN katM0 32) (bytesN katPk 672) = bytesN katCt 736 := kat_ct
  have h4 : encapsK (params .light) (bytesN katM0 32) (bytesN katPk 672) = bytesN katSs 32 := kat_ss
  have h5 := kem_agree (params .light) (params_eT .light) _ _ (bytesN katZ 32) _ C05_vector_noise
  rw [h1, h2] at e1
  rw [h3, h4] at e2
  rw [h1, h2, h3, h4] at h5
  refine ⟨e1, e2, ?_⟩
  rw [C03_dec_spec .light kb' (bytesN katCt 736) (bytesN katSk 1568) hk' (length_bytesN _ _) (length_bytesN _ _), h5]

/-- C92: the hypotheses of `C92_agreement` are met by the same exchange: key generation on the Cortex-M4, encapsulation with AVX2, decapsulation by the reference. -/
example : ∃ pk sk c key,
    Impl.keypair (.cortexM4 M4.refLib (M4.toom_cook_4way_striding .wrap M4.refKara) false) .light replay (List.replicate 672 0) (List.replicate 1568 0)
      [bytesN katR1 32, bytesN katR2 32, bytesN katZ 32] = .ok (0, pk, sk, []) ∧
    Impl.enc .avx2 .light replay (List.replicate 736 0) (List.replicate 32 0) pk [bytesN katM0 32] = .ok (0, c, key, []) ∧
    Impl.dec .reference .light (List.replicate 32 0) c sk = .ok (0, key) :=
  C92_agreement (.cortexM4 M4.refLib (M4.toom_cook_4way_striding .wrap M4.refKara) false) .avx2 .reference ⟨M4.refLib_correct, M4.refToom_correct⟩ trivial trivial rfl .light replay replay _ _ _ _ _ _ _ _ _ _
    (replay_delivers _ (length_bytesN _ _) _) (replay_delivers _ (length_bytesN _ _) _) (replay_delivers _ (length_bytesN _ _) _)
    (replay_delivers _ (length_bytesN _ _) _) _ _ _ _ _ List.length_replicate (by rw [List.length_replicate]; rfl) List.length_replicate List.length_replicate
    List.length_replicate C05_vector_noise

end Saber.Props
