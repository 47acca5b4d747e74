import Verif.Proof.M0.Pke
/-!
# `kem.c` of the Cortex-M0 port
-/
namespace Saber.M0
open Saber Spec Spec.Keccak

variable [Spec.Keccak.Permutation] [StatePermute] [Permutes]

omit [StatePermute] [Permutes] in
theorem length_m0PkeEnc (m s pk : List Byte) : (m0PkeEnc m s pk).length = 1088 := by
  unfold m0PkeEnc
  rw [List.length_append, length_packVec, length_pack]

theorem crypto_kem_keypair_m0 {σ : Type} {E : UB → Prop} {mac : Mac} (hm : ∀ c a b, OkE E (mac c a b) (· = c + a * b))
    (rb : RandomBytes σ) (st st1 st2 st3 : σ) (r1 r2 z : List Byte) (h1 : Delivers rb 32 st r1 st1) (h2 : Delivers rb 32 st1 r2 st2)
    (h3 : Delivers rb 32 st2 z st3) (gs : GS) (hg : GSOk gs) (pk sk : List Byte) (hpk : pk.length = 992) (hsk : sk.length = 2304) :
    OkE E (crypto_kem_keypair mac rb gs pk sk st) (· = (0, kemPk saber r1 r2, kemSk saber r1 r2 z, st3)) := by
  unfold crypto_kem_keypair
  refine (keypair_m0 hm rb st st1 st2 r1 r2 h1 h2 gs hg pk sk hpk (by omega)).bind ?_
  rintro _ rfl
  dsimp only
  obtain ⟨hl3, hr3⟩ := h3
  have e0 : pkeKeyGenPk saber (Keccak.shake128 r1 32) r2 = kemPk saber r1 r2 := rfl
  have l1 : (kemPk saber r1 r2).length = 992 := length_kemPk _ _ _
  have l2 : (pkeKeyGenSk saber r2).length = 1248 := length_pkeKeyGenSk _ _
  rw [e0]
  have hloop := copyLoop_ok (writeAt sk 0 (pkeKeyGenSk saber r2)) 1248 (kemPk saber r1 r2) 992
    (by omega) (by rw [length_writeAt _ _ _ (by omega)]; omega)
  simp only [Nat.add_comm 1248] at hloop
  rw [hloop, ok_bind, List.take_of_length_le (by omega), writeAt_after _ _ _ _ _ (by omega) (by omega)]
  have l3 : (pkeKeyGenSk saber r2 ++ kemPk saber r1 r2).length = 2240 := by rw [List.length_append]; omega
  rw [sha3_256_m0 _ _ _ _ _ (by rw [length_writeAt _ _ _ (by omega)]; omega) (by omega), ok_bind, List.drop_zero,
    List.take_of_length_le (by omega)]
  have l4 := length_sha3_256 (kemPk saber r1 r2)
  rw [writeAt_after _ _ _ _ _ (by omega) (by omega)]
  have l5 : (pkeKeyGenSk saber r2 ++ kemPk saber r1 r2 ++ Keccak.sha3_256 (kemPk saber r1 r2)).length = 2272 := by
    rw [List.length_append]; omega
  rw [hr3 _ _ (by rw [length_writeAt _ _ _ (by omega)]; omega), ok_bind]
  dsimp only
  rw [writeAt_after _ _ _ _ _ (by omega) (by omega), writeAt_full _ _ (by rw [List.length_append]; omega)]
  exact OkE.pure rfl

theorem crypto_kem_enc_m0 {σ : Type} {E : UB → Prop} {mac : Mac} (hm : ∀ c a b, OkE E (mac c a b) (· = c + a * b))
    (rb : RandomBytes σ) (st st1 : σ) (m0 : List Byte) (h1 : Delivers rb 32 st m0 st1) (gs : GS) (hg : GSOk gs)
    (c k pk : List Byte) (hc : c.length = 1088) (hk : k.length = 32) (hpk : pk.length = 992) :
    OkE E (crypto_kem_enc mac rb gs c k pk st) (· = (0, m0EncapsC m0 pk, m0EncapsK m0 pk, st1)) := by
  obtain ⟨hl, hr⟩ := h1
  unfold crypto_kem_enc
  dsimp only
  rw [hr _ _ (by simp), ok_bind]
  dsimp only
  have lw : (writeAt (uninit 8 171 64) 0 m0).length = 64 := by rw [length_writeAt _ _ _ (by simp; omega)]; simp
  rw [sha3_256_m0 _ _ _ _ _ (by omega) (by omega), ok_bind, List.drop_zero]
  have e1 : (writeAt (uninit 8 171 64) 0 m0).take 32 = m0 := by
    rw [writeAt_prefix, List.take_append_of_le_length (by omega), List.take_of_length_le (by omega)]
  rw [e1]
  have lm := length_sha3_256 m0
  have lp := length_sha3_256 pk
  rw [sha3_256_m0 _ _ _ _ _ (by rw [length_writeAt _ _ _ (by omega)]; omega) (by omega), ok_bind, List.drop_zero,
    List.take_of_length_le (show pk.length ≤ 992 by omega),
    writeAt_after _ _ _ _ _ (by omega) (by omega), writeAt_full _ _ (by rw [List.length_append]; omega)]
  have lb : (Keccak.sha3_256 m0 ++ Keccak.sha3_256 pk).length = 64 := by rw [List.length_append]; omega
  rw [sha3_512_m0 _ _ _ _ _ (by simp) (by omega), ok_bind, List.drop_zero, List.take_of_length_le (by omega)]
  have lk := length_sha3_512 (Keccak.sha3_256 m0 ++ Keccak.sha3_256 pk)
  rw [writeAt_full _ _ (by simp; omega)]
  refine (enc_m0 hm gs hg _ _ _ _ _ _ _ (by omega) (by omega) (by omega) hc).bind ?_
  rintro _ rfl
  rw [List.drop_zero, List.drop_zero, List.take_append_of_le_length (by omega),
    List.take_of_length_le (show (Keccak.sha3_256 m0).length ≤ 32 by omega), List.take_of_length_le (show pk.length ≤ 992 by omega),
    List.take_of_length_le (show (List.drop 32 _).length ≤ 32 by rw [List.length_drop]; omega)]
  have ec : m0PkeEnc (Keccak.sha3_256 m0) ((Keccak.sha3_512 (Keccak.sha3_256 m0 ++ Keccak.sha3_256 pk)).drop 32) pk = m0EncapsC m0 pk := rfl
  rw [ec]
  have lc : (m0EncapsC m0 pk).length = 1088 := length_m0PkeEnc _ _ _
  rw [sha3_256_m0 _ _ _ _ _ (by omega) (by omega), ok_bind, List.drop_zero, List.take_of_length_le (show (m0EncapsC m0 pk).length ≤ 1088 by omega)]
  have lh := length_sha3_256 (m0EncapsC m0 pk)
  rw [sha3_256_m0 _ _ _ _ _ (by omega) (by rw [length_writeAt _ _ _ (by omega)]; omega), ok_bind, List.drop_zero,
    List.take_of_length_le (show (writeAt _ _ _).length ≤ 64 by rw [length_writeAt _ _ _ (by omega)]; omega),
    writeAt_full k _ (by rw [length_sha3_256]; omega)]
  have e2 : writeAt (Keccak.sha3_512 (Keccak.sha3_256 m0 ++ Keccak.sha3_256 pk)) 32 (Keccak.sha3_256 (m0EncapsC m0 pk)) =
      (kemKr (Keccak.sha3_256 m0) (Keccak.sha3_256 pk)).take 32 ++ Keccak.sha3_256 (m0EncapsC m0 pk) := by
    unfold writeAt
    rw [List.drop_of_length_le (by omega), List.append_nil]; rfl
  rw [e2]
  exact OkE.pure rfl

omit [Permutation] [Permutes] in
theorem crypto_kem_dec_m0 {E : UB → Prop} {mac : Mac} (hm : ∀ c a b, OkE E (mac c a b) (· = c + a * b)) (gs : GS)
    (k c sk : List Byte) (hc : 1088 ≤ c.length) (hsk : 1248 ≤ sk.length) :
    ∃ e, crypto_kem_dec mac gs k c sk = .error e ∧ (E e ∨ e = .oob) := by
  unfold crypto_kem_dec
  rcases (dec_m0 hm sk c (uninit 8 181 64) hsk hc).2 (by simp) with ⟨_, _, h⟩ | ⟨e, h, he⟩
  · exact h.elim
  · exact ⟨e, by rw [h]; rfl, he⟩

end Saber.M0
